import Verif.Sampled.Spec
import Verif.Editor.Props
import Verif.MapGroups.Props
import Verif.WriteAce.Props

/-! # C25 (whole sample), C34, C35 -/

set_option linter.unusedSectionVars false

namespace ASAPy.Sampled
open ASAPy.Ace ASAPy.MapGroups

variable {K : Type*} [Field K] [LinearOrder K] [ExpLog K]
variable {file : Table K} {T : Temp}

theorem min?_of_least {low : List K} {m : K} (h : IsLeast {x | x ∈ low} m) : low.min? = some m := by
  rw [List.min?_eq_some_iff]
  exact ⟨h.1, fun b hb => h.2 hb⟩

/-- The sampled array of one MT. -/
theorem factorTimes_spec [IsStrictOrderedRing K] {ed : Editor K} {k : Nat} {inp : Input K} {d : Data K} (h : Fits ed k inp d) :
    ∃ col low out, inp.cols[k]? = some col ∧ inp.bounds = .ok (d.high, low) ∧
      factorTimes d.high low col d.es (d.base.map fun v => if v = 0 then 1 else v) = .ok out ∧ Scaled d out := by
  obtain ⟨col, hcol, hrel⟩ := h.sample
  obtain ⟨low, hb, hmin⟩ := h.bounds
  obtain ⟨f, hf, hfa⟩ := mapGroups_ok (maxE? := none) (minE? := some d.minE) (1 : K) (Or.inr ⟨rfl, h.max⟩) (Or.inl rfl)
    h.usable col d.rel hrel d.es (fun e he hem => h.noMin (hem ▸ he))
  have hfl := hfa.length_eq
  refine ⟨col, low, List.zipWith (· * ·) f (d.base.map fun v => if v = 0 then 1 else v), hcol, hb, ?_, ?_, ?_⟩
  · unfold factorTimes
    rw [min?_of_least hmin]
    simp only [hf]
    unfold bcast
    rw [if_pos (by simp [← hfl, h.length])]
  · simp [← hfl, h.length]
  · intro i e b o he hbi ho
    rw [List.forall₂_iff_get] at hfa
    have hi : i < d.es.length := (List.getElem?_eq_some_iff.mp he).1
    have hif : i < f.length := hfl ▸ hi
    have hr := hfa.2 i hi hif
    have hee : d.es[i] = e := (List.getElem?_eq_some_iff.mp he).2
    simp only [List.get_eq_getElem, hee] at hr
    simp only [List.getElem?_zipWith, List.getElem?_map, hbi, List.getElem?_eq_getElem hif, Option.map_some,
      Option.some.injEq] at ho
    subst ho
    exact ⟨fun g hg => by rw [hr.1 g hg], fun hout => by rw [hr.2 hout, one_mul]⟩

theorem setSigma_ok {ed : Editor K} {mt : MT} (h1018 : mt ≠ 1018) {es cur v : List K}
    (hE : getEnergy ed mt = .ok (.arr es)) (hS : getSigma ed mt none false = .ok (.arr cur))
    (hl : v.length = es.length) : (setSigma ed mt (.arr v)).2 = .ok () := by
  unfold setSigma
  rw [hE]
  simp only
  rw [if_neg (by simp [Val.len, hl]), hS]
  simp only
  by_cases h452 : mt = 452
  · simp [h452]
  · simp [h452, h1018]

/-- One MT of one sample. -/
theorem sampleMt_spec [IsStrictOrderedRing K] (hf : WellFormed file T) {ed : Editor K} (hr : Reachable file T ed) {k : Nat} {inp : Input K}
    {d : Data K} (h : Fits ed k inp d) :
    ∃ ed', sampleMt ed k inp = (ed', .ok ()) ∧ Reachable file T ed' ∧
      (∃ out, getSigma ed' inp.mt none false = .ok (.arr out) ∧ Scaled d out) ∧
      (∀ m, getEnergy ed' m = getEnergy ed m) ∧
      (∀ m, m ≠ inp.mt → (∀ c, ¬ Part m c) → ∀ at? un, getSigma ed' m at? un = getSigma ed m at? un) := by
  obtain ⟨col, low, out, hcol, hb, hout, hsc⟩ := factorTimes_spec h
  have hset := setSigma_ok h.notChi h.energies h.values hsc.1
  cases hs : setSigma ed inp.mt (.arr out) with
  | mk ed1 o =>
    rw [hs] at hset
    simp only at hset
    subst hset
    have hr1 : Reachable file T ed1 := by
      have := reachable_step hr (.set inp.mt (.arr out))
      simp only [step, hs] at this
      exact this
    have hr2 := reachable_step hr1 .sums
    have hok := (C11_never_fails hf hr1).1
    have hun : ∀ m, (∀ c, ¬ Part m c) → ¬ (OnFile file m ∧ ∃ c, OnFile file c ∧ Part m c ∧ Reached file ed1.adjusted c) := by
      rintro m hm ⟨_, c, _, hp, _⟩
      exact hm c hp
    have hne := C01_nothing_else (ed := ed) inp.mt (.arr out)
    rw [hs] at hne
    refine ⟨(applySumRules ed1).1, ?_, hr2, ⟨out, ?_, hsc⟩, ?_, ?_⟩
    · unfold sampleMt
      simp only [hcol, hb, h.energies, h.values, hout, Except.map, hs]
      exact Prod.ext rfl hok
    · rw [(C08_untouched hf hr1 (hun _ h.elementary)).2.1]
      exact C01_set_then_get_partial h.notChi (fun hm => h.nuVaries hm _ hsc) hs
    · intro m
      rw [energy_sums ed1 m]
      by_cases hm : m = inp.mt
      · subst hm
        exact hne.2.2 fun hm => h.nuVaries hm _ hsc
      · exact hne.2.1 m hm
    · intro m hm hp at? un
      rw [(C08_untouched hf hr1 (hun m hp)).2.1, hne.1 m hm]

theorem sampleMts_spec [IsStrictOrderedRing K] (hf : WellFormed file T) (k : Nat) (ins : List (Input K)) : ∀ (ed : Editor K),
    Reachable file T ed → (∀ inp ∈ ins, ∃ d, Fits ed k inp d) → (ins.map (·.mt)).Nodup →
    ∃ ed', sampleMts ed k ins = (ed', .ok ()) ∧ Reachable file T ed' ∧
      (∀ inp ∈ ins, ∀ d, Fits ed k inp d → ∃ out, getSigma ed' inp.mt none false = .ok (.arr out) ∧ Scaled d out) ∧
      (∀ m, m ∉ ins.map (·.mt) → (∀ c, ¬ Part m c) → getSigma ed' m none false = getSigma ed m none false) := by
  induction ins with
  | nil => intro ed hr _ _; exact ⟨ed, rfl, hr, by simp, by simp⟩
  | cons inp ins ih =>
    intro ed hr hfit hnd
    obtain ⟨d, hd⟩ := hfit inp (List.mem_cons_self ..)
    obtain ⟨ed1, h1, hr1, hv1, he1, ho1⟩ := sampleMt_spec hf hr hd
    rw [List.map_cons, List.nodup_cons] at hnd
    have hne : ∀ i ∈ ins, i.mt ≠ inp.mt := fun i hi heq => hnd.1 (heq ▸ List.mem_map_of_mem hi)
    have hcarry : ∀ i ∈ ins, ∀ d, Fits ed k i d → Fits ed1 k i d := by
      intro i hi d hd
      exact { hd with
        energies := by rw [he1]; exact hd.energies
        values := by rw [ho1 _ (hne i hi) hd.elementary]; exact hd.values }
    obtain ⟨ed2, h2, hr2, hv2, ho2⟩ := ih ed1 hr1
      (fun i hi => by
        obtain ⟨d, hd⟩ := hfit i (List.mem_cons_of_mem _ hi)
        exact ⟨d, hcarry i hi d hd⟩) hnd.2
    refine ⟨ed2, ?_, hr2, ?_, ?_⟩
    · simp only [sampleMts, h1, h2]
    · intro i hi d' hd'
      rcases List.mem_cons.mp hi with rfl | hi
      · rw [ho2 _ hnd.1 hd'.elementary]
        obtain ⟨col, low, out, hcol, hb, hout, hsc⟩ := factorTimes_spec hd'
        obtain ⟨out', hout', hsc'⟩ := hv1
        refine ⟨out', hout', ?_⟩
        -- the data of an input are unique
        have e1 := hd.energies.symm.trans hd'.energies
        have e2 := hd.values.symm.trans hd'.values
        obtain ⟨c1, hc1, hr1⟩ := hd.sample
        obtain ⟨c2, hc2, hr2⟩ := hd'.sample
        obtain ⟨l1, hb1, hm1⟩ := hd.bounds
        obtain ⟨l2, hb2, hm2⟩ := hd'.bounds
        rw [hc1] at hc2; cases hc2
        rw [hb1] at hb2
        simp only [Except.ok.injEq, Prod.mk.injEq] at hb2
        obtain ⟨hh, hl⟩ := hb2
        simp only [Except.ok.injEq, Val.arr.injEq] at e1 e2
        subst hl
        have hmin : d.minE = d'.minE := le_antisymm (hm1.2 hm2.1) (hm2.2 hm1.1)
        have hmax : d.maxE = d'.maxE := by
          have g1 := hd.max; have g2 := hd'.max
          rw [hh] at g1
          exact le_antisymm (g2.2 g1.1) (g1.2 g2.1)
        refine ⟨by rw [← e1]; exact hsc'.1, ?_⟩
        intro j e b o hje hjb hjo
        rw [← e1] at hje
        rw [← e2] at hjb
        obtain ⟨s1, s2⟩ := hsc'.2 j e b o hje hjb hjo
        rw [← hmin, ← hmax, ← hh]
        refine ⟨fun g hg => ?_, s2⟩
        rw [s1 g hg]
        have := hr1 g hg.1 hg.2.1
        rw [hr2 g hg.1 (hh ▸ hg.2.1)] at this
        simp only [Option.some.injEq] at this
        rw [this]
      · exact hv2 i hi d' (hcarry i hi d' hd')
    · intro m hm hp
      simp only [List.map_cons, List.mem_cons, not_or] at hm
      rw [ho2 m hm.2 hp, ho1 m hm.1 hp]

/-- **C34 (partial).** Sampling any number of different elementary MTs succeeds and leaves in the editor, at each energy
of each of them, the base value times the sampled relative value of the energy's group - but with a base value of zero
counted as one. Missing: zeros do not stay zero, see `C34_zero_refuted`. -/
theorem C34_sampled_values_partial [IsStrictOrderedRing K] (hf : WellFormed file T) {ed0 : Editor K} (h0 : init file none = .ok ed0)
    (hT : ed0.temperature = T) (k : Nat) (ins : List (Input K)) (hfit : ∀ inp ∈ ins, ∃ d, Fits ed0 k inp d)
    (hnd : (ins.map (·.mt)).Nodup) :
    ∃ ed, sampleMts ed0 k ins = (ed, .ok ()) ∧
      ∀ inp ∈ ins, ∀ d, Fits ed0 k inp d → ∃ out, getSigma ed inp.mt none false = .ok (.arr out) ∧ Scaled d out := by
  obtain ⟨ed, h1, _, h2, _⟩ := sampleMts_spec hf k ins ed0 ⟨none, ed0, [], h0, hT, rfl⟩ hfit hnd
  exact ⟨ed, h1, h2⟩

/-- **C35 (partial).** If all relative values of the sample are one, every sampled elementary MT without zero values
has exactly its base values afterwards. Missing: MTs with zero values (see `C35_unit_refuted`) and redundant ones; for
chi see `C35_chi`. -/
theorem C35_unit_sample_partial [IsStrictOrderedRing K] (hf : WellFormed file T) {ed0 : Editor K} (h0 : init file none = .ok ed0)
    (hT : ed0.temperature = T) (k : Nat) (ins : List (Input K))
    (hfit : ∀ inp ∈ ins, ∃ d, Fits ed0 k inp d ∧ (∀ g, d.rel g = 1) ∧ 0 ∉ d.base)
    (hnd : (ins.map (·.mt)).Nodup) :
    ∃ ed, sampleMts ed0 k ins = (ed, .ok ()) ∧
      ∀ inp ∈ ins, getSigma ed inp.mt none false = getSigma ed0 inp.mt none false := by
  obtain ⟨ed, h1, h2⟩ := C34_sampled_values_partial hf h0 hT k ins
    (fun inp hi => by obtain ⟨d, hd, _⟩ := hfit inp hi; exact ⟨d, hd⟩) hnd
  refine ⟨ed, h1, ?_⟩
  intro inp hi
  obtain ⟨d, hd, hone, hz⟩ := hfit inp hi
  obtain ⟨out, ho, hlen, hsc⟩ := h2 inp hi d hd
  rw [ho, hd.values]
  congr 2
  apply List.ext_getElem (by rw [hlen, hd.length])
  intro i hi1 hi2
  have hie : i < d.es.length := hlen ▸ hi1
  obtain ⟨s1, s2⟩ := hsc i _ _ _ (List.getElem?_eq_getElem hie) (List.getElem?_eq_getElem hi2)
    (List.getElem?_eq_getElem hi1)
  have hb : d.base[i] ≠ 0 := fun h => hz (h ▸ List.getElem_mem hi2)
  rw [if_neg hb] at s1 s2
  by_cases hr : d.minE < d.es[i] ∧ d.es[i] ≤ d.maxE
  · obtain ⟨g, hg, _⟩ := C26_every_energy_has_one_group hd.usable hr.1 hr.2
    rw [s1 g hg, hone, one_mul]
  · apply s2
    by_contra hc
    push Not at hc
    have hne : d.es[i] ≠ d.minE := fun h => hd.noMin (h ▸ List.getElem_mem hie)
    exact hr ⟨lt_of_le_of_ne hc.1 (Ne.symm hne), hc.2⟩

/-! ### C25: the whole sample -/

theorem writeJobs_eq (fmt : K → List Char) (base ed : Editor K) : ∀ (mts : List Nat) (groups : List (List (WriteAce.Job K))) (w : WriteAce.Writer),
    List.Forall₂ (fun mt js => jobsOf base ed mt = .ok js) mts groups →
    writeJobs fmt base ed w mts = WriteAce.runGroups fmt w groups := by
  intro mts groups w h
  induction h generalizing w with
  | nil => rfl
  | @cons mt js mts groups h _ ih =>
    simp only [writeJobs, WriteAce.runGroups, h]
    cases hg : WriteAce.runGroup fmt w js with
    | mk w1 o =>
      cases o with
      | ok u => exact ih w1
      | error e => cases e <;> first | exact ih w1 | rfl

/-- What is to be replaced for an adjusted MT, in the terms of the two editors: the values of the base file by the values of the edited one;
for chi all densities (in 1/MeV, hence times 10^6) and then all cumulative distributions. -/
def Replaces (ed0 ed : Editor K) (mt : Nat) (js : List (WriteAce.Job K)) : Prop :=
  (mt ≠ 1018 ∧ ∃ b s, getSigma ed0 mt none false = .ok (.arr b) ∧ getSigma ed mt none false = .ok (.arr s) ∧
    ∃ n, js = [⟨b, s, n⟩] ∧ (n = 1 ∨ (mt = 452 ∧ n = 9999))) ∨
  (mt = 1018 ∧ ∃ b s : Chi K, getChiDistro ed0 false = .ok b ∧ getChiDistro ed false = .ok s ∧
    b.energyOut.length = s.energyOut.length ∧
    js.map (·.base) = b.energyOut.map (fun d => d.p.map (· * 10 ^ 6)) ++ b.energyOut.map (·.c) ∧
    js.map (·.new) = s.energyOut.map (fun d => d.p.map (· * 10 ^ 6)) ++ s.energyOut.map (·.c) ∧
    ∀ j ∈ js, j.maxReplaces = 1)

theorem job_ext : ∀ {l l' : List (WriteAce.Job K)}, l.map (·.base) = l'.map (·.base) → l.map (·.new) = l'.map (·.new) →
    (∀ j ∈ l, j.maxReplaces = 1) → (∀ j ∈ l', j.maxReplaces = 1) → l = l'
  | [], [], _, _, _, _ => rfl
  | [], _ :: _, h, _, _, _ => by simp at h
  | _ :: _, [], h, _, _, _ => by simp at h
  | ⟨b, n, m⟩ :: l, ⟨b', n', m'⟩ :: l', h1, h2, h3, h4 => by
    simp only [List.map_cons, List.cons.injEq] at h1 h2
    have e1 := h3 _ (List.mem_cons_self ..)
    have e2 := h4 _ (List.mem_cons_self ..)
    simp only at e1 e2
    rw [h1.1, h2.1, e1, e2, job_ext h1.2 h2.2 (fun j hj => h3 j (List.mem_cons_of_mem _ hj))
      fun j hj => h4 j (List.mem_cons_of_mem _ hj)]

/-- The jobs of the loop are these replacements (452 may be replaced at all its places). -/
theorem jobsOf_replaces {ed0 ed : Editor K} {mt : Nat} {js : List (WriteAce.Job K)} (h : Replaces ed0 ed mt js) :
    (mt = 452 → ∀ j ∈ js, j.maxReplaces = 9999) → jobsOf ed0 ed mt = .ok js := by
  intro hnu
  rcases h with ⟨hmt, b, s, hb, hs, n, rfl, hn⟩ | ⟨rfl, b, s, hb, hs, hlen, h1, h2, h3⟩
  · simp only [jobsOf, if_neg hmt, hb, hs]
    by_cases h452 : mt = 452
    · have := hnu h452 _ (List.mem_singleton_self _)
      simp only at this
      rw [this, if_pos h452]
    · rcases hn with rfl | ⟨h, -⟩
      · rw [if_neg h452]
      · exact absurd h h452
  · simp only [jobsOf, if_true, hb, hs]
    refine congrArg Except.ok (job_ext ?_ ?_ ?_ h3)
    · rw [h1, List.map_append, List.map_zipWith, List.map_zipWith]
      congr 1
      · apply List.ext_getElem
        · simp [hlen]
        · intro i _ _; simp; intros; norm_num
      · apply List.ext_getElem
        · simp [hlen]
        · intro i _ _; simp
    · rw [h2, List.map_append, List.map_zipWith, List.map_zipWith]
      congr 1
      · apply List.ext_getElem
        · simp [hlen]
        · intro i _ _; simp; intros; norm_num
      · apply List.ext_getElem
        · simp [hlen]
        · intro i _ _; simp
    · intro j hj
      rcases List.mem_append.mp hj with hj | hj
      all_goals
        obtain ⟨i, hi, rfl⟩ := List.mem_iff_getElem.mp hj
        simp

/-- **C25 (whole sample).** Let the sampling of the MTs succeed with editor `ed`, let `groups` be the base and sampled
arrays of the adjusted MTs in increasing order (`Replaces`), and `jobs` these arrays with their places in the file, pairwise
disjoint. If at its turn every base array occurs in the data section only at its place, as whole values (or first at its place, if one
occurrence is to be replaced), then the file of the sample is written, and read back it holds the sampled arrays at the places and the original values
elsewhere. -/
theorem C25_render {fmt : K → List Char} (hfmt : WriteAce.Formats fmt) (hwide : ∀ x, (fmt x).length ≤ 19)
    {parse : List Char → Except PyErr (Table K)} {text : List Char} {ed0 ed : Editor K} {k : Nat} {ins : List (Input K)}
    (hp : parse text = .ok file) (hi : init file none = .ok ed0) (hs : sampleMts ed0 k ins = (ed, .ok ()))
    {w : WriteAce.Writer} (hw : WriteAce.read text = .ok w) (hh : WriteAce.HeaderOk w.header)
    (hl : ∀ v ∈ w.values, v.length ≤ 19)
    {groups : List (List (WriteAce.Job K))}
    (hrep : List.Forall₂ (fun mt js => Replaces ed0 ed mt js ∧ (mt = 452 → ∀ j ∈ js, j.maxReplaces = 9999))
      (ed.adjusted.insertionSort (· ≤ ·)) groups)
    (jobs : List (WriteAce.Job K × Nat)) (hjobs : jobs.map Prod.fst = groups.flatten)
    (hok : ∀ js ∈ jobs, js.1.base.length = js.1.new.length ∧ js.1.base ≠ [] ∧ 0 < js.1.maxReplaces)
    (hdis : jobs.Pairwise (fun a b => ∀ i, ¬ (WriteAce.Covers a i ∧ WriteAce.Covers b i)))
    (hocc : ∀ pre js post, jobs = pre ++ js :: post →
      WriteAce.FoundAt fmt (WriteAce.runGroup fmt w (pre.map Prod.fst)).1.singleLine js.1 js.2) :
    ∃ text', render fmt parse ins text k = .ok text' ∧
    ∃ w', WriteAce.read text' = .ok w' ∧ w'.header = w.header ∧
      w'.values.length = w.values.length ∧
      (∀ js ∈ jobs, ∀ i, WriteAce.Covers js i → w'.values[i]? = (js.1.new.map fmt)[i - js.2]?) ∧
      (∀ i, (∀ js ∈ jobs, ¬ WriteAce.Covers js i) → w'.values[i]? = w.values[i]?) := by
  have hg : List.Forall₂ (fun mt js => jobsOf ed0 ed mt = .ok js) (ed.adjusted.insertionSort (· ≤ ·)) groups :=
    hrep.imp fun _ _ h => jobsOf_replaces h.1 h.2
  obtain ⟨h1, h2⟩ := WriteAce.C25_sampled_file hfmt hwide hh hl groups jobs hjobs hok hdis hocc
  refine ⟨WriteAce.write (WriteAce.runGroups fmt w groups).1, ?_, h2⟩
  unfold render
  simp only [hp, hi, hs, hw, writeJobs_eq fmt ed0 ed _ _ w hg]
  cases hr : WriteAce.runGroups fmt w groups with
  | mk w1 o =>
    rw [hr] at h1
    simp only at h1
    subst h1
    rfl

section
local instance : ExpLog ℚ := ⟨id, id⟩

/-- Capture with two groups, relative values 2 and 1/2. -/
def demoInput : Input ℚ := ⟨102, [[(1, 2), (2, 1/2)], [(1, 1), (2, 1)]], .ok ([4, 2], [2, 1/2])⟩

def demoData (rel : Nat → ℚ) : Data ℚ := ⟨[1, 2, 3], [30, 31, 32], rel, [4, 2], 1/2, 4⟩

theorem demo_fits : Fits demoEd 0 demoInput (demoData fun g => if g = 1 then 2 else 1/2) where
  notChi := by decide
  elementary := by intro c; simp [demoInput, Ace.Part]
  energies := by decide +kernel
  values := by decide +kernel
  length := rfl
  sample := by
    refine ⟨[(1, 2), (2, 1/2)], rfl, ?_⟩
    intro g h1 h2
    have : g = 1 ∨ g = 2 := by simp [demoData] at h2; omega
    rcases this with rfl | rfl <;> decide +kernel
  bounds := ⟨[2, 1/2], rfl, by constructor <;> simp [demoData, lowerBounds]; norm_num⟩
  max := by constructor <;> simp [demoData, upperBounds]; norm_num
  usable := by
    constructor
    · simp [demoData]
    · simp [demoData]; norm_num
    · simp [demoData]; norm_num
    · simp [demoData]; norm_num
  noMin := by simp [demoData]; norm_num
  nuVaries := fun h => absurd h (by decide)

theorem demo_fits_unit : Fits demoEd 1 demoInput (demoData fun _ => 1) :=
  { demo_fits with
    nuVaries := fun h => absurd h (by decide)
    energies := by decide +kernel
    values := by decide +kernel
    sample := by
      refine ⟨[(1, 1), (2, 1)], rfl, ?_⟩
      intro g h1 h2
      have : g = 1 ∨ g = 2 := by simp [demoData] at h2; omega
      rcases this with rfl | rfl <;> decide +kernel }

example : ∃ ed, sampleMts demoEd 0 [demoInput] = (ed, .ok ()) ∧
    getSigma ed 102 none false = .ok (.arr [15, 31/2, 64]) := by
  refine ⟨_, Prod.ext rfl ?_, ?_⟩ <;> decide +kernel

example : ∃ ed, sampleMts demoEd 1 [demoInput] = (ed, .ok ()) ∧
    ∀ inp ∈ [demoInput], getSigma ed inp.mt none false = getSigma demoEd inp.mt none false :=
  C35_unit_sample_partial demo_wf demo_open rfl 1 [demoInput]
    (by
      intro inp hi
      simp only [List.mem_singleton] at hi
      subst hi
      refine ⟨_, demo_fits_unit, fun _ => rfl, ?_⟩
      simp [demoData])
    (by simp)

/-- A file with capture only, its text and the sample of the whole file. -/
def oneFile : Table ℚ := { temperatures := ["300K".toList], reactions := [(102, demoRx [1, 2, 3] [30, 31, 32])] }

def oneText : List Char :=
  (List.replicate 12 "92235.71c\n".toList).flatten ++
    WriteAce.layout (["1".toList] ++ [30, 31, 32].map WriteAce.fmtE)

example : (render WriteAce.fmtE (fun _ => .ok oneFile) [demoInput] oneText 0).bind
      (fun t => (WriteAce.read t).map (·.values)) =
    .ok (["1".toList] ++ [15, 31/2, 64].map WriteAce.fmtE) := by
  decide +kernel

/-- A file whose capture cross section is zero at the first energy. -/
def zeroFile : Table ℚ := { temperatures := ["300K".toList], reactions := [(102, demoRx [1, 2, 3] [0, 31, 32])] }

/-- **C34 and C35 are false**: where the base cross section is zero, the sampled one is the relative value - even for a
sample of ones. -/
theorem C34_zero_refuted : ∃ ed0 ed, init zeroFile none = .ok ed0 ∧
    getSigma ed0 102 none false = .ok (.arr [0, 31, 32]) ∧ sampleMts ed0 0 [demoInput] = (ed, .ok ()) ∧
    getSigma ed 102 none false = .ok (.arr [1/2, 31/2, 64]) := by
  refine ⟨_, _, rfl, ?_, Prod.ext rfl ?_, ?_⟩ <;> decide +kernel

theorem C35_unit_refuted : ∃ ed0 ed, init zeroFile none = .ok ed0 ∧
    getSigma ed0 102 none false = .ok (.arr [0, 31, 32]) ∧ demoInput.cols[1]? = some [(1, 1), (2, 1)] ∧
    sampleMts ed0 1 [demoInput] = (ed, .ok ()) ∧
    getSigma ed 102 none false = .ok (.arr [1, 31, 32]) := by
  refine ⟨_, _, rfl, ?_, rfl, Prod.ext rfl ?_, ?_⟩ <;> decide +kernel

end

end ASAPy.Sampled
