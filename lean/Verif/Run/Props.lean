import Verif.Run.Model
import Verif.Mpi.Props
import Verif.Sampler.Props
import Verif.AceData.Props
import Mathlib.Algebra.Order.Ring.Rat
import Mathlib.Algebra.Field.Rat

/-! # The main program: requested samples (C94), file names (C95), keys of the store (C96) -/

set_option linter.unusedSimpArgs false
set_option linter.unusedSectionVars false

namespace ASAPy.Run
open ASAPy.Sampler (Frame sampleXsec)

variable {K : Type*} [Field K] [LinearOrder K] [ExpLog K]

/-! ### C94 -/

theorem adjustable_nodup (s : Setup K) (h : s.mts.Nodup) : (adjustable s).Nodup := by
  unfold adjustable
  apply List.Nodup.filter
  split_ifs
  · exact h
  · exact (List.perm_insertionSort _ _).nodup_iff.mpr (List.nodup_dedup _)

/-- The frames drawn for the MTs. -/
theorem drawAll_spec (s : Setup K) (make : Nat) : ∀ (mts : List Nat) (fs : List (Frame K)), drawAll s make mts = .ok fs →
    List.Forall₂ (fun mt f => ∃ en full, s.entry mt = .ok en ∧ sampleXsec (en.draws s.n) en.mean s.n make true false = .ok (f, full)) mts fs := by
  intro mts
  induction mts with
  | nil => intro fs h; cases h; exact .nil
  | cons mt mts ih =>
    intro fs h
    unfold drawAll at h
    cases he : s.entry mt with
    | error e => rw [he] at h; cases h
    | ok en =>
      rw [he] at h
      simp only at h
      rcases hx : sampleXsec (en.draws s.n) en.mean s.n make true false with e | ⟨rel, full⟩
      · rw [hx] at h; cases h
      · rw [hx] at h
        simp only at h
        cases hd : drawAll s make mts with
        | error e => rw [hd] at h; cases h
        | ok fs' =>
          rw [hd] at h
          cases h
          exact .cons ⟨en, full, he, hx⟩ (ih fs' hd)

theorem plan_spec {s : Setup K} {j : Job K} (h : plan s = .ok (some j)) : j.mts = adjustable s ∧ j.mts ≠ [] ∧
    ∃ make, List.Forall₂ (fun mt f => ∃ en full, s.entry mt = .ok en ∧ sampleXsec (en.draws s.n) en.mean s.n make true false = .ok (f, full)) j.mts j.frames := by
  unfold plan at h
  simp only at h
  generalize (if s.over = -1 then (s.n : Int) else s.over) = make at h
  split_ifs at h with h1 h2
  · simp at h
  · cases hd : drawAll s make.toNat (adjustable s) with
    | error e => rw [hd] at h; cases h
    | ok fs =>
      rw [hd] at h
      simp only [Except.ok.injEq, Option.some.injEq] at h
      subst h
      exact ⟨rfl, h2, make.toNat, drawAll_spec s _ _ _ hd⟩

/-- What the draws for the MTs must be like: `n` samples of the right length, without negative values. -/
def DrawsGood (s : Setup K) (j : Job K) : Prop :=
  ∀ mt ∈ j.mts, ∀ en, s.entry mt = .ok en → (en.draws s.n).length = s.n ∧ ∀ d ∈ en.draws s.n, d.length = en.mean.length ∧ ∀ v ∈ d, 0 ≤ v

theorem frames_count {s : Setup K} {j : Job K} (h : plan s = .ok (some j)) (hd : DrawsGood s j) : ∀ f ∈ j.frames, f.cols.length = s.n := by
  obtain ⟨_, _, make, hf⟩ := plan_spec h
  unfold DrawsGood at hd
  generalize j.mts = mts at hf hd
  generalize j.frames = fs at hf
  induction hf with
  | nil => simp
  | @cons mt f mts fs h0 _ ih =>
    intro g hg
    rcases List.mem_cons.mp hg with rfl | hg
    · obtain ⟨en, full, he, hs⟩ := h0
      obtain ⟨d1, d2⟩ := hd mt (List.mem_cons_self ..) en he
      obtain ⟨rel, full', g1, _, _, g4⟩ := Sampler.C31_delivered_partial (en.draws s.n) en.mean (fun d hd => (d2 d hd).1) s.n make
      rw [hs] at g1
      simp only [Except.ok.injEq, Prod.mk.injEq] at g1
      rw [g1.1, g4 (fun d hd => (d2 d hd).2), d1]
    · exact ih (fun mt hm => hd mt (List.mem_cons_of_mem _ hm)) g hg

/-- **C94** (part). If no negative value is drawn and every sample can be computed from the base file, then at the end of the run, for every number of processes and every schedule,
there are the files of the samples 0..n-1, where n is the requested number; the file of sample k is computed from the k-th samples of all MTs; there are no files of further samples,
and there is a csv file for every MT. Every MT has n samples. (Missing, and false: the same if negative values are drawn.) -/
theorem C94_requested_partial {s : Setup K} {j : Job K} (hplan : plan s = .ok (some j)) (hdraws : DrawsGood s j) (hmts : s.mts.Nodup) (fmt : K → List Char)
    (parse : List Char → Except PyErr (Ace.Table K)) (csv : Nat → Except PyErr (List Char)) (hbase : ¬ "./".toList <+: s.base)
    {fs0 : Mpi.FS} {b : List Char} (hb : fs0 s.base = some b) {ace csvs : Nat → List Char}
    (hace : ∀ k, k < s.n → Sampled.render fmt parse (j.inputs s) b k = .ok (ace k)) (hcsv : ∀ mt ∈ j.mts, csv mt = .ok (csvs mt)) {size : Nat} (hsize : 0 < size)
    {sched : List Mpi.Event} (hkill : ∀ r, .kill r ∉ sched) (hfin : Mpi.Finished (Mpi.exec (j.env s fmt parse csv) (j.start size fs0) sched)) :
    let file (name : List Char) := (Mpi.exec (j.env s fmt parse csv) (j.start size fs0) sched).fs ("./".toList ++ s.symbol ++ AceData.intStr s.mass ++ ['_'] ++ name)
    (∀ k, k < s.n → file (Dec.natStr k) = some (ace k)) ∧
    (∀ k, s.n ≤ k → file (Dec.natStr k) = fs0 ("./".toList ++ s.symbol ++ AceData.intStr s.mass ++ ['_'] ++ Dec.natStr k)) ∧
    (∀ mt ∈ j.mts, file (Dec.natStr mt ++ "_samples.csv".toList) = some (csvs mt)) ∧
    (j.inputs s).map (·.mt) = j.mts ∧ ∀ i ∈ j.inputs s, i.cols.length = s.n := by
  intro file
  obtain ⟨hm, hne, make, hf⟩ := plan_spec hplan
  have hlen := hf.length_eq
  have hcount : j.count = s.n := by
    unfold Job.count
    cases hfr : j.frames with
    | nil =>
      rw [hfr] at hlen
      exact absurd (List.length_eq_zero_iff.mp hlen) hne
    | cons f fs =>
      simp only [List.head?_cons, Option.map_some, Option.getD_some]
      exact frames_count hplan hdraws f (by rw [hfr]; exact List.mem_cons_self ..)
  have hnb : ∀ t, (j.env s fmt parse csv).base ≠ (j.env s fmt parse csv).path t := by
    intro t h
    apply hbase
    show _ <+: (j.env s fmt parse csv).base
    rw [h]
    cases t <;> simp [Mpi.Env.path, Job.env]
  have hnd : j.mts.Nodup := by rw [hm]; exact adjustable_nodup s hmts
  obtain ⟨g1, g2, g3⟩ := Mpi.C33_same_files_partial hsize hnd hnb hb ace csvs (n := s.n) hace hcsv sched hkill (by rw [← hcount]; exact hfin)
  have hstart : Mpi.start s.n j.mts size fs0 = j.start size fs0 := by rw [Job.start, hcount]
  rw [hstart] at g1 g2 g3
  refine ⟨g1, ?_, ?_, ?_, ?_⟩
  · intro k hk
    apply g3
    · intro k' hk' h
      have := Mpi.path_injective (j.env s fmt parse csv) (show (j.env s fmt parse csv).path (.ace k) = (j.env s fmt parse csv).path (.ace k') from h)
      simp only [Mpi.Task.ace.injEq] at this
      omega
    · intro mt _ h
      have := Mpi.path_injective (j.env s fmt parse csv) (show (j.env s fmt parse csv).path (.ace k) = (j.env s fmt parse csv).path (.csv mt) from h)
      cases this
  · intro mt hmt
    have := g2 mt hmt
    simpa [file, Mpi.Env.path, Job.env] using this
  · unfold Job.inputs
    generalize j.frames = fs at hlen
    generalize j.mts = ms at hlen
    clear * - hlen
    induction ms generalizing fs with
    | nil => simp
    | cons m ms ih =>
      cases fs with
      | nil => simp at hlen
      | cons f fs => simp [ih fs (by simpa using hlen)]
  · intro i hi
    unfold Job.inputs at hi
    rw [List.mem_iff_getElem?] at hi
    obtain ⟨q, hq⟩ := hi
    rw [List.getElem?_zipWith] at hq
    cases h1 : j.mts[q]? with
    | none => rw [h1] at hq; simp at hq
    | some mt => cases h2 : j.frames[q]? with
      | none => rw [h1, h2] at hq; simp at hq
      | some f =>
        rw [h1, h2] at hq
        simp only [Option.some.injEq] at hq
        subst hq
        simp only [columns, List.length_map]
        exact frames_count hplan hdraws f (List.mem_of_getElem? h2)

/-- Every MT needs a sample: otherwise the sample's file cannot be computed. -/
theorem sampleMts_missing (k : Nat) : ∀ (ins : List (Sampled.Input K)) (ed : Ace.Editor K), (∃ i ∈ ins, i.cols.length ≤ k) →
    ∃ ed' e, Sampled.sampleMts ed k ins = (ed', .error e) := by
  intro ins
  induction ins with
  | nil => rintro ed ⟨i, hi, _⟩; cases hi
  | cons i ins ih =>
    rintro ed ⟨i', hi', hk⟩
    unfold Sampled.sampleMts
    rcases List.mem_cons.mp hi' with rfl | hi'
    · have : i'.cols[k]? = none := List.getElem?_eq_none hk
      refine ⟨ed, .keyError, ?_⟩
      simp [Sampled.sampleMt, this]
    · rcases Sampled.sampleMt ed k i with ⟨ed1, e | u⟩
      · exact ⟨ed1, e, rfl⟩
      · exact ih ed1 ⟨i', hi', hk⟩

/-- **C94 is false** whenever an MT other than the first loses more samples to negative values than the first one: then the run fails at the first sample that is missing. -/
theorem C94_later_refuted (s : Setup K) (j : Job K) (fmt : K → List Char) (parse : List Char → Except PyErr (Ace.Table K)) (text : List Char) {k : Nat}
    (h : ∃ i ∈ j.inputs s, i.cols.length ≤ k) : ∃ e, Sampled.render fmt parse (j.inputs s) text k = .error e := by
  unfold Sampled.render
  cases parse text with
  | error e => exact ⟨e, rfl⟩
  | ok file =>
    simp only
    cases Ace.init file none with
    | error e => exact ⟨e, rfl⟩
    | ok ed0 =>
      obtain ⟨ed', e, he⟩ := sampleMts_missing k (j.inputs s) ed0 h
      exact ⟨e, by simp only [he]⟩

/-- The samples of one MT relative to their mean, when no value drawn is negative and only zeros are drawn where the mean is zero. -/
theorem sampleXsec_good (draws : List (List K)) (mean : List K) (hf : Sampler.Fits draws mean) (hpos : ∀ d ∈ draws, ∀ v ∈ d, 0 ≤ v)
    (hz : ∀ d ∈ draws, ∀ p ∈ List.zip d mean, p.2 = 0 → p.1 = 0) (n make : Nat) :
    ∃ full, sampleXsec draws mean n make true false = .ok (⟨List.range' 1 mean.length, draws.map fun d => (List.zipWith (fun v m => if m = 0 then 0 else v / m) d mean).map .fin⟩, full) := by
  unfold sampleXsec
  rw [Sampler.C30_full_values draws mean hf n true]
  have hall : draws.filter (fun d => decide (∀ v ∈ d, 0 ≤ v)) = draws := by
    rw [List.filter_eq_self]
    intro d hd
    simpa using hpos d hd
  refine ⟨⟨List.range' 1 mean.length, draws.map fun d => d.map .fin⟩, ?_⟩
  simp only [if_true, hall, Sampler.sampleCheck, Bool.false_eq_true, if_false, List.map_map, Except.ok.injEq, Prod.mk.injEq, Frame.mk.injEq, true_and, and_true]
  rw [List.zipWith_map, List.zipWith_self]
  apply List.map_congr_left
  intro d hd
  have hz' := hz d hd
  simp only [Function.comp_def, List.map_map, Sampler.finite, List.map_id']
  clear hall hd hz hpos hf
  induction d generalizing mean with
  | nil => simp
  | cons v d ih =>
    cases mean with
    | nil => simp
    | cons m mean =>
      simp only [List.map_cons, List.zipWith_cons_cons, List.cons.injEq]
      refine ⟨?_, ih mean fun p hp => hz' p (by simp [hp])⟩
      by_cases hm : m = 0
      · have hv : v = 0 := hz' (v, m) (by simp) hm
        simp [hm, hv, Flt.div, Flt.isNan]
      · simp [hm, Flt.div, Flt.isNan]

/-- What is asked of the draws: where the mean of a group is zero, only zeros are drawn. -/
def ZerosGood (s : Setup K) (j : Job K) : Prop :=
  ∀ mt ∈ j.mts, ∀ en, s.entry mt = .ok en → ∀ d ∈ en.draws s.n, ∀ p ∈ List.zip d en.mean, p.2 = 0 → p.1 = 0

/-- **C94** (part). What the samples' files are computed from: for every MT the energy bounds of the store's entry and, for sample k, the k-th values drawn for this MT divided by the mean values,
labelled with the group numbers 1, 2, ... . -/
theorem C94_values {s : Setup K} {j : Job K} (hplan : plan s = .ok (some j)) (hdraws : DrawsGood s j) (hzeros : ZerosGood s j) :
    List.Forall₂ (fun mt (i : Sampled.Input K) => ∃ en, s.entry mt = .ok en ∧ i.mt = mt ∧ i.bounds = .ok en.bounds ∧
      i.cols = (en.draws s.n).map fun d => List.zip ((List.range en.mean.length).map fun (g : Nat) => (g : Int) + 1) (List.zipWith (fun v m => if m = 0 then 0 else v / m) d en.mean))
      j.mts (j.inputs s) := by
  obtain ⟨_, _, make, hf⟩ := plan_spec hplan
  unfold DrawsGood at hdraws
  unfold ZerosGood at hzeros
  unfold Job.inputs
  generalize j.mts = mts at hf hdraws hzeros
  generalize j.frames = fs at hf
  induction hf with
  | nil => exact .nil
  | @cons mt f mts fs h0 _ ih =>
    simp only [List.zipWith_cons_cons]
    refine .cons ?_ (ih (fun mt hm => hdraws mt (List.mem_cons_of_mem _ hm)) fun mt hm => hzeros mt (List.mem_cons_of_mem _ hm))
    obtain ⟨en, full, he, hs⟩ := h0
    obtain ⟨d1, d2⟩ := hdraws mt (List.mem_cons_self ..) en he
    obtain ⟨full', g⟩ := sampleXsec_good (en.draws s.n) en.mean (fun d hd => (d2 d hd).1) (fun d hd => (d2 d hd).2) (hzeros mt (List.mem_cons_self ..) en he) s.n make
    rw [hs] at g
    simp only [Except.ok.injEq, Prod.mk.injEq] at g
    refine ⟨en, he, rfl, by rw [he]; rfl, ?_⟩
    rw [g.1]
    simp only [columns, List.map_map]
    apply List.map_congr_left
    intro d _
    simp only [Function.comp_def, List.map_map, Sampler.finite, List.map_id']
    congr 1
    rw [List.range'_eq_map_range, List.map_map]
    apply List.map_congr_left
    intro g _
    simp only [Function.comp_def]
    push_cast
    ring

/-- **C94** (part). Which numbers of oversamples are accepted: none given, or at least as many as samples requested. If there is an MT to adjust and its entries can be read, there are samples to write. -/
theorem C94_accepted {s : Setup K} (hover : s.over = -1 ∨ (s.n : Int) ≤ s.over) (hmts : adjustable s ≠ [])
    (hent : ∀ mt ∈ adjustable s, ∃ en, s.entry mt = .ok en ∧ ∀ d ∈ en.draws s.n, d.length = en.mean.length) : ∃ j, plan s = .ok (some j) := by
  have hd : ∀ make mts, (∀ mt ∈ mts, mt ∈ adjustable s) → ∃ fs, drawAll s make mts = .ok fs := by
    intro make mts
    induction mts with
    | nil => intro _; exact ⟨[], rfl⟩
    | cons mt mts ih =>
      intro h
      obtain ⟨en, he, hfit⟩ := hent mt (h mt (List.mem_cons_self ..))
      obtain ⟨fs, hfs⟩ := ih fun m hm => h m (List.mem_cons_of_mem _ hm)
      obtain ⟨rel, full, hx, _⟩ := Sampler.C31_delivered_partial (en.draws s.n) en.mean hfit s.n make
      exact ⟨rel :: fs, by simp only [drawAll, he, hx, hfs]⟩
  unfold plan
  have hnot : ¬ (if s.over = -1 then (s.n : Int) else s.over) < s.n := by split_ifs <;> omega
  simp only
  rw [if_neg hnot, if_neg hmts]
  obtain ⟨fs, hfs⟩ := hd (if s.over = -1 then (s.n : Int) else s.over).toNat (adjustable s) (fun _ h => h)
  rw [hfs]
  exact ⟨_, rfl⟩

/-- **C94** (part). Fewer oversamples than samples are refused. -/
theorem C94_refused {s : Setup K} (h1 : s.over ≠ -1) (h2 : s.over < s.n) : plan s = .error .exception := by
  unfold plan
  simp only [if_neg h1, if_pos h2]

namespace Example
local instance : ExpLog ℚ := ⟨id, id⟩

/-- Fission and capture, one group, two samples; one negative value is drawn for `bad`. -/
def setup (bad : Nat) (mts : List Nat) : Setup ℚ where
  base := "U235.ace".toList
  mts := mts
  n := 2
  over := 10
  allMts := [2, 18, 102]
  symbol := "U".toList
  mass := 235
  storeMts := [102, 18, 18, 102, 4]
  entry := fun mt => .ok ⟨[1], ([2], [1]), fun n => (List.range n).map fun i => [if mt = bad ∧ i = 1 then -1 else 1]⟩

def good : Frame ℚ := ⟨[1], [[.fin 1], [.fin 1]]⟩
def short : Frame ℚ := ⟨[1], [[.fin 1]]⟩

theorem plan_good : plan (setup 0 []) = .ok (some ⟨[18, 102], [good, good]⟩) := by decide +kernel

theorem good_draws : DrawsGood (setup 0 []) ⟨[18, 102], [good, good]⟩ := by
  intro mt hmt en he
  have : en = ⟨[1], ([2], [1]), fun n => (List.range n).map fun i => [if mt = 0 ∧ i = 1 then -1 else 1]⟩ := (Except.ok.inj he).symm
  subst this
  have h0 : mt ≠ 0 := by simp only [List.mem_cons, List.not_mem_nil, or_false] at hmt; omega
  constructor
  · rw [List.length_map, List.length_range]
  intro d hd
  simp only [h0, false_and, if_false, List.mem_map] at hd
  obtain ⟨i, _, rfl⟩ := hd
  exact ⟨rfl, by simp⟩

theorem good_zeros : ZerosGood (setup 0 []) ⟨[18, 102], [good, good]⟩ := by
  intro mt hmt en he
  have : en = ⟨[1], ([2], [1]), fun n => (List.range n).map fun i => [if mt = 0 ∧ i = 1 then -1 else 1]⟩ := (Except.ok.inj he).symm
  subst this
  intro d hd p hp h0
  simp only [List.mem_map] at hd
  obtain ⟨i, _, rfl⟩ := hd
  simp only [List.zip_cons_cons, List.zip_nil_right, List.mem_singleton] at hp
  subst hp
  exact absurd h0 one_ne_zero

/-- `C94_accepted` applies to this setup, and `C94_refused` to the same with one oversample. -/
example : (∃ j, plan (setup 0 []) = .ok (some j)) ∧ plan { setup 0 [] with over := 1 } = .error .exception :=
  ⟨C94_accepted (Or.inr (by decide)) (by decide +kernel) fun mt _ => ⟨_, rfl, by
    intro d hd
    simp only [List.mem_map] at hd
    obtain ⟨i, _, rfl⟩ := hd
    rfl⟩, C94_refused (by decide) (by decide)⟩

example : ¬ "./".toList <+: (setup 0 []).base := by decide +kernel
end Example

/-- **C94 is false**: two samples are requested (with ten oversamples), but a negative value is drawn for the first MT: one sample is written, without an error. If the negative value is drawn
for the second MT, there are two samples to write, and the second one fails. -/
theorem C94_fewer_refuted :
    letI : ExpLog ℚ := ⟨id, id⟩
    (Example.setup 18 []).n = 2 ∧ (plan (Example.setup 18 []) = .ok (some ⟨[18, 102], [Example.short, Example.good]⟩) ∧
      (⟨[18, 102], [Example.short, Example.good]⟩ : Job ℚ).count = 1) ∧
    plan (Example.setup 102 []) = .ok (some ⟨[18, 102], [Example.good, Example.short]⟩) ∧ (⟨[18, 102], [Example.good, Example.short]⟩ : Job ℚ).count = 2 ∧
      ∃ i ∈ (⟨[18, 102], [Example.good, Example.short]⟩ : Job ℚ).inputs (Example.setup 102 []), i.cols.length ≤ 1 := by
  refine ⟨rfl, ⟨by decide +kernel, rfl⟩, by decide +kernel, rfl, ?_⟩
  exact ⟨_, List.mem_cons_of_mem _ (List.mem_cons_self ..), by decide +kernel⟩

/-! ### C95 -/

/-- The outputs of a run for a nuclide. -/
def outputs (symbol : List Char) (mass : Nat) (t : Mpi.Task) : List Char :=
  ("./".toList ++ symbol ++ AceData.intStr mass ++ ['_']) ++ (match t with
    | .ace k => Dec.natStr k
    | .csv mt => Dec.natStr mt ++ "_samples.csv".toList)

theorem outputs_eq (s : Setup K) (j : Job K) (fmt : K → List Char) (parse : List Char → Except PyErr (Ace.Table K)) (csv : Nat → Except PyErr (List Char)) {a : Nat}
    (ha : s.mass = a) (t : Mpi.Task) : (j.env s fmt parse csv).path t = outputs s.symbol a t := by
  cases t <;> simp [Mpi.Env.path, Job.env, outputs, ha]

theorem span_letters (sym : List Char) (h : ∀ c ∈ sym, Dec.isDigit c = false) (n : Nat) (rest : List Char) :
    (sym ++ Dec.natStr n ++ rest).span (fun c => !Dec.isDigit c) = (sym, Dec.natStr n ++ rest) := by
  induction sym with
  | nil =>
    simp only [List.nil_append]
    cases hs : Dec.natStr n with
    | nil => exact absurd hs (Dec.natStr_ne_nil n)
    | cons c cs =>
      have : Dec.isDigit c = true := Dec.natStr_digits n c (by rw [hs]; exact List.mem_cons_self ..)
      simp [List.span_eq_takeWhile_dropWhile, this]
  | cons c cs ih =>
    have h1 := h c (List.mem_cons_self ..)
    have h2 := ih fun x hx => h x (List.mem_cons_of_mem _ hx)
    rw [List.span_eq_takeWhile_dropWhile] at h2 ⊢
    simp only [Prod.mk.injEq] at h2
    simp [h1, h2.1, h2.2]
    simpa using h2

/-- **C95** (part). Runs for nuclides with different element or mass number have no output file in common. (Missing, and false: isomers.) -/
theorem C95_files_partial {z z' : Nat} {sym sym' : List Char} (hz : AceData.Element z sym) (hz' : AceData.Element z' sym') {a a' : Nat} (hne : (z, a) ≠ (z', a'))
    (t t' : Mpi.Task) : outputs sym a t ≠ outputs sym' a' t' := by
  intro h
  have hsym : ∀ {z sym}, AceData.Element z sym → ∀ c ∈ sym, Dec.isDigit c = false := by
    intro z sym h c hc
    obtain ⟨d, r, e, h1, h2⟩ := AceData.symbols_good _ h
    simp only at e
    rw [e] at hc
    rcases List.mem_cons.mp hc with rfl | hc
    · rcases h1 with h1 | rfl
      · by_contra hd
        simp only [Bool.not_eq_false, Dec.isDigit, AceData.isUpper, Bool.and_eq_true, decide_eq_true_eq] at hd h1
        omega
      · decide
    · by_contra hd
      simp only [Bool.not_eq_false] at hd
      have := AceData.digit_not_lower hd
      rw [h2 c hc] at this
      cases this
  unfold outputs at h
  rw [AceData.intStr_nat, AceData.intStr_nat] at h
  simp only [List.append_assoc, List.append_cancel_left_eq, List.cons_append, List.nil_append] at h
  generalize hx : (match t with | .ace k => Dec.natStr k | .csv mt => Dec.natStr mt ++ "_samples.csv".toList) = x at h
  generalize hx' : (match t' with | .ace k => Dec.natStr k | .csv mt => Dec.natStr mt ++ "_samples.csv".toList) = x' at h
  have h1 := span_letters sym (hsym hz) a ('_' :: x)
  have h2 := span_letters sym' (hsym hz') a' ('_' :: x')
  rw [List.append_assoc, h, ← List.append_assoc, h2] at h1
  simp only [Prod.mk.injEq] at h1
  obtain ⟨rfl, h3⟩ := h1
  have e1 := AceData.digits_append (Dec.natStr a) ('_' :: x) (Dec.natStr_digits a) (by simp; decide)
  have e2 := AceData.digits_append (Dec.natStr a') ('_' :: x') (Dec.natStr_digits a') (by simp; decide)
  rw [← h3, e2] at e1
  simp only [Prod.mk.injEq] at e1
  have ha := Dec.natStr_injective e1.1
  have hzz : (z : Int) = z' := by
    have g1 := AceData.number_of hz
    have g2 := AceData.number_of hz'
    rw [g1] at g2
    exact Option.some.inj g2
  exact hne (by rw [ha, Int.ofNat_inj.mp hzz])

/-- **C95 is false** for isomers: the tables of Am-242 and its isomer have the same element and mass number, so that both runs read the same covariances and write the same files. -/
theorem C95_isomer_refuted : ∃ m m', AceData.getMetadata 95242 .nndc = .ok m ∧ AceData.getMetadata 95642 .nndc = .ok m' ∧ m.name ≠ m'.name ∧
    (∀ t, outputs m.element m.a.toNat t = outputs m'.element m'.a.toNat t) ∧ samplerZaid m.z.toNat m.a.toNat = samplerZaid m'.z.toNat m'.a.toNat :=
  ⟨⟨"Am242".toList, "Am".toList, 95, 242, 0⟩, ⟨"Am242_m1".toList, "Am".toList, 95, 242, 1⟩, by decide +kernel, by decide +kernel, by decide +kernel, fun _ => rfl, rfl⟩

/-! ### C96 -/

theorem natVal_append (u v : List Char) : Dec.natVal (u ++ v) = Dec.natVal u * 10 ^ v.length + Dec.natVal v := by
  unfold Dec.natVal
  rw [List.foldl_append]
  generalize List.foldl (fun a c => 10 * a + Dec.digitVal c) 0 u = x
  have : ∀ (v : List Char) (x : Nat), List.foldl (fun a c => 10 * a + Dec.digitVal c) x v =
      x * 10 ^ v.length + List.foldl (fun a c => 10 * a + Dec.digitVal c) 0 v := by
    intro v
    induction v with
    | nil => simp
    | cons c v ih =>
      intro x
      simp only [List.foldl_cons, List.length_cons]
      rw [ih, ih (10 * 0 + Dec.digitVal c)]
      ring
  exact this v x

theorem zfill3_spec {a : Nat} (ha : a < 1000) : (zfill3 a).length = 3 ∧ Dec.natVal (zfill3 a) = a ∧ ∀ c ∈ zfill3 a, Dec.isDigit c = true := by
  have : ∀ a, a < 1000 → (zfill3 a).length = 3 ∧ Dec.natVal (zfill3 a) = a ∧ ∀ c ∈ zfill3 a, Dec.isDigit c = true := by decide +kernel
  exact this a ha

/-- A text of digits that does not begin with 0 is the text of its value. -/
theorem natStr_natVal : ∀ (l : List Char), (∀ c ∈ l, Dec.isDigit c = true) → l ≠ [] → l.head? ≠ some '0' → Dec.natStr (Dec.natVal l) = l ∧ 0 < Dec.natVal l := by
  have hchar : ∀ c : Char, Dec.isDigit c = true → Dec.digitChar (Dec.digitVal c) = c ∧ Dec.digitVal c < 10 ∧ (c ≠ '0' → 0 < Dec.digitVal c) := by
    intro c hc
    have h1 : c = Char.ofNat c.toNat := by simp
    simp only [Dec.isDigit, Bool.and_eq_true, decide_eq_true_eq] at hc
    have : ∀ n, 48 ≤ n → n ≤ 57 → Dec.digitChar (Dec.digitVal (Char.ofNat n)) = Char.ofNat n ∧ Dec.digitVal (Char.ofNat n) < 10 ∧
        (Char.ofNat n ≠ '0' → 0 < Dec.digitVal (Char.ofNat n)) := by
      intro n h1 h2
      interval_cases n <;> decide
    rw [h1]
    exact this _ hc.1 hc.2
  intro l
  induction l using List.reverseRecOn with
  | nil => intro _ h; exact absurd rfl h
  | append_singleton l c ih =>
    intro hd _ h0
    have hc := hchar c (hd c (by simp))
    have hv : Dec.natVal (l ++ [c]) = Dec.digitVal c + 10 * Dec.natVal l := by
      rw [natVal_append]
      simp [Dec.natVal]
      ring
    rw [hv]
    cases hl : l with
    | nil =>
      rw [hl] at h0
      have hc0 : c ≠ '0' := by simpa using h0
      have hpos := hc.2.2 hc0
      refine ⟨?_, by omega⟩
      simp only [Dec.natVal, List.foldl_nil, Nat.mul_zero, Nat.add_zero, Dec.natStr, Nat.ne_of_gt hpos, if_false]
      rw [Nat.digits_of_lt 10 _ (Nat.ne_of_gt hpos) hc.2.1]
      simp [hc.1]
    | cons x xs =>
      rw [← hl]
      obtain ⟨i1, i2⟩ := ih (fun y hy => hd y (by simp [hy])) (by rw [hl]; simp) (by rw [hl] at h0 ⊢; simpa using h0)
      refine ⟨?_, by omega⟩
      have hne : Dec.digitVal c + 10 * Dec.natVal l ≠ 0 := by omega
      have hne' : Dec.natVal l ≠ 0 := by omega
      have i3 : ((Nat.digits 10 (Dec.natVal l)).map Dec.digitChar).reverse = l := by simpa only [Dec.natStr, hne', if_false] using i1
      simp only [Dec.natStr, hne, if_false]
      rw [Nat.digits_add 10 (by norm_num) _ _ hc.2.1 (Or.inr (Nat.ne_of_gt i2))]
      rw [List.map_cons, List.reverse_cons, i3, hc.1]

/-- **C96** (part). The key under which EndfToCov stores the covariances of a nuclide is the one under which XsecSampler looks for them, and different nuclides have different keys.
(Missing, and false: targets without charge.) -/
theorem C96_key_partial {z a : Nat} (hz : 1 ≤ z) (ha : a < 1000) : storeZaid z a = samplerZaid z a ∧
    ∀ {z' a'}, a' < 1000 → samplerZaid z' a' = samplerZaid z a → z' = z ∧ a' = a := by
  obtain ⟨h1, h2, h3⟩ := zfill3_spec ha
  refine ⟨?_, ?_⟩
  · have hz' := Dec.natStr_digits z
    apply (natStr_natVal _ _ _ _).1
    · intro c hc
      rw [List.mem_append] at hc
      exact hc.elim (hz' c) (h3 c)
    · simp [Dec.natStr_ne_nil]
    · intro h0
      rw [List.head?_append_of_ne_nil _ (Dec.natStr_ne_nil z)] at h0
      have hlast : Dec.natStr z = ((Nat.digits 10 z).map Dec.digitChar).reverse := by simp [Dec.natStr, Nat.ne_of_gt hz]
      rw [hlast, List.head?_reverse, List.getLast?_map] at h0
      rw [List.getLast?_eq_getLast_of_ne_nil (Nat.digits_ne_nil_iff_ne_zero.mpr (Nat.ne_of_gt hz))] at h0
      simp only [Option.map_some, Option.some.injEq] at h0
      have hn := Nat.getLast_digit_ne_zero 10 (Nat.ne_of_gt hz)
      have hlt := Nat.digits_lt_base (b := 10) (by norm_num) (List.getLast_mem (Nat.digits_ne_nil_iff_ne_zero.mpr (Nat.ne_of_gt hz)))
      have := (Dec.digitChar_spec _ hlt).2
      rw [h0] at this
      exact hn this.symm
  · intro z' a' ha' h
    obtain ⟨g1, g2, _⟩ := zfill3_spec ha'
    have := List.append_inj' h (by rw [h1, g1])
    exact ⟨Dec.natStr_injective this.1, by rw [← h2, ← g2, this.2]⟩

example : storeZaid 92 235 = "92235".toList ∧ storeZaid 1 1 = "1001".toList := by decide +kernel

/-- **C96 is false** for the free neutron (Z = 0, A = 1). -/
theorem C96_neutron_refuted : storeZaid 0 1 = "1".toList ∧ samplerZaid 0 1 = "0001".toList := by decide +kernel

end ASAPy.Run
