import Verif.EndToEnd.Props
import Verif.EndToEnd.ReloadNu
import Verif.EndToEnd.Example
import Verif.FromAce.ReadProps

/-! # C233: sampled nu-bar and fission spectra, from the file to the file -/

set_option linter.unusedSimpArgs false

namespace ASAPy.EndToEnd
open ASAPy.WriteAce ASAPy.AceData ASAPy.Str ASAPy.Sampled ASAPy.FromAce ASAPy.MapGroups
open ASAPy.Ace (Editor init getSigma getEnergy WellFormed)

/-- **C233 (the file of a sample of nu-bar).** A sample of an ACE file is written as in C86, nu-bar among the sampled MTs. If the written file can be loaded, the nu-bar loaded from it has the original energies; at every
energy in group `g` it is the original one times the sampled relative value of the group, with a relative error of at most 5e-12; at energies outside the groups it is the original one, with the same error. (For
sampled values that are not negative and, as written, not all the same; and where the original value is positive.) -/
theorem C233_nu_file [ExpLog ℚ] {t : AceData.Table ℚ} {text : List Char} {hs xss : List (List Char)} (ht : AceText t text hs xss)
    {c : Content ℚ} (hc : FromAce.Holds t c) {file : Ace.Table ℚ} (hp : load t = .ok file) {ed0 ed : Editor ℚ} (hi : init file none = .ok ed0)
    (hsound : c.Sound) {k : Nat} {ins : List (Input ℚ)}
    (hfit : ∀ inp ∈ ins, Sampleable ed0 k inp) (hnd : (ins.map (·.mt)).Nodup)
    (hs : sampleMts ed0 k ins = (ed, .ok ())) {w : Writer} (hw : WriteAce.read text = .ok w)
    {groups : List (List (Job ℚ))}
    (hrep : List.Forall₂ (fun mt js => Replaces ed0 ed mt js ∧ (mt = 452 → ∀ j ∈ js, j.maxReplaces = 9999))
      (ed.adjusted.insertionSort (· ≤ ·)) groups)
    (jobs : List (Job ℚ × Nat)) (hjobs : jobs.map Prod.fst = groups.flatten)
    (hok : ∀ js ∈ jobs, js.1.base.length = js.1.new.length ∧ js.1.base ≠ [] ∧ 0 < js.1.maxReplaces)
    (hfin : ∀ js ∈ jobs, ∀ x ∈ js.1.new, Finite x)
    (hdis : jobs.Pairwise (fun a b => ∀ i, ¬ (Covers a i ∧ Covers b i)))
    (hstr : ∀ js ∈ jobs, ∀ i, Covers js i → ¬ Structural t c (i + 1))
    (hocc : ∀ pre js post, jobs = pre ++ js :: post →
      FoundAt fmtE (runGroup fmtE w (pre.map Prod.fst)).1.singleLine js.1 js.2)
    {q : Nat} {r : Entry ℚ} (hlast : c.Last q r) (hmt : r.mt = 18) (hf : IsFission t q) {nu : Tab ℚ} (hn : HoldsNu t c nu) (hvary : ∃ v ∈ nu.values, ∃ w ∈ nu.values, v ≠ w)
    (hfree : ∀ js ∈ jobs, ∀ i, Covers js i → ¬ FissionMark t q (i + 1) ∧ ¬ NuFrame t nu (i + 1)) :
    ∃ text', render fmtE parse ins text k = .ok text' ∧ ∀ file' ed', parse text' = .ok file' → init file' none = .ok ed' →
      ∀ inp ∈ ins, ∀ d, Fits ed0 k inp d → inp.mt = 452 →
      ∀ js ∈ jobs, getSigma ed0 452 none false = .ok (.arr js.1.base) → getSigma ed 452 none false = .ok (.arr js.1.new) → NuPlace t nu js.2 →
      (∀ v ∈ js.1.new, 0 ≤ v) → (∃ v ∈ js.1.new.map rounded, ∃ w ∈ js.1.new.map rounded, v ≠ w) →
      getEnergy ed' 452 = .ok (.arr d.es) ∧ ∃ out, getSigma ed' 452 none false = .ok (.arr out) ∧ out.length = d.es.length ∧
        ∀ (n : Nat) (e b v : ℚ), d.es[n]? = some e → d.base[n]? = some b → out[n]? = some v → 0 < b →
          (∀ g, InGroup d.high d.maxE d.minE g e → |v - d.rel g * b| ≤ d.rel g * b / (2 * 10 ^ 11)) ∧
          ((e < d.minE ∨ d.maxE < e) → |v - b| ≤ b / (2 * 10 ^ 11)) := by
  obtain ⟨text', xss', g1, _, g3, g4⟩ := C86_sample_table ht hp hi hs hw hrep jobs hjobs hok hfin hdis hocc
  refine ⟨text', g1, ?_⟩
  have hwf : WellFormed file ed0.temperature := by
    have := C89_well_formed hc hsound hp
    obtain ⟨rs, _, hT⟩ := load_split hp
    rw [hT] at hi
    unfold init Ace.chooseTemperature at hi
    simp only [List.length_cons, List.length_nil] at hi
    cases hi
    exact this
  intro file' ed' hfile' hed' inp hinp d hd hm js hjs hb hnw hplace hpos hflat
  rw [g3] at hfile'
  obtain ⟨out, o1, o2, o3⟩ := C233_nu hc g4 hstr hfile' hed' hlast hmt hf hn hfree hplace
  obtain ⟨_, p2, p3⟩ := C80_nu hc hp hi hlast hmt hf hn hvary
  have hes : nu.energies.map (· * 1000000) = d.es := by
    have := p2.symm.trans (hm ▸ hd.energies)
    simpa using this
  have hjb : js.1.base = nu.values := by
    have := hb.symm.trans p3
    simpa using this
  have hjl : js.1.base.length = nu.values.length := by rw [hjb]
  have hnew := o2.1 js hjs rfl hjl ((hok js hjs).1 ▸ hjl)
  subst hnew
  obtain ⟨_, q2, q3⟩ := o3 (by
    intro v hv
    obtain ⟨x, hx, rfl⟩ := List.mem_map.mp hv
    exact rounded_nonneg (hpos x hx)) hflat
  obtain ⟨ed1, s1, s2, -⟩ := C34_with_chi hwf hi rfl k ins hfit hnd
  rw [hs] at s1
  cases s1
  obtain ⟨o, ho, hsc⟩ := s2 inp hinp d hd
  have hno : js.1.new = o := by
    have := hnw.symm.trans (hm ▸ ho)
    simpa using this
  refine ⟨by rw [q2, hes], _, q3, ?_, ?_⟩
  · rw [List.length_map, hno]; exact hsc.1
  · intro n e b v hne' hbn hvn hbpos
    rw [List.getElem?_map, Option.map_eq_some_iff] at hvn
    obtain ⟨x, hx, rfl⟩ := hvn
    have hxm := List.mem_of_getElem? hx
    obtain ⟨t1, t2⟩ := hsc.2 n e b x hne' hbn (hno ▸ hx)
    rw [if_neg hbpos.ne'] at t1 t2
    have hclose := (C84_written x (hfin js hjs x hxm)).2
    rw [abs_of_nonneg (hpos x hxm)] at hclose
    exact ⟨fun g hg => by rw [← t1 g hg]; exact hclose, fun hg => by rw [← t2 hg]; exact hclose⟩

end ASAPy.EndToEnd

namespace ASAPy.EndToEnd.Example.Nu
open ASAPy.WriteAce ASAPy.AceData ASAPy.Str ASAPy.Sampled ASAPy.FromAce ASAPy.MapGroups
open ASAPy.Ace (Editor init getSigma getEnergy WellFormed)
local instance : ExpLog ℚ := ⟨id, id⟩

/-- Nu-bar with two groups, relative values 2 and 1/2. -/
def input : Input ℚ := ⟨452, [[(1, 2), (2, 1 / 2)]], .ok ([4000000, 2000000], [2000000, 500000])⟩

def data : Data ℚ := ⟨[1000000, 3000000], [3, 4], fun g => if g = 1 then 2 else 1 / 2, [4000000, 2000000], 500000, 4000000⟩

theorem fits : Fits editor 0 input data where
  notChi := by decide
  elementary := by intro c; simp [input, Ace.Part]
  energies := by decide +kernel
  values := by decide +kernel
  length := rfl
  sample := by
    refine ⟨[(1, 2), (2, 1 / 2)], rfl, ?_⟩
    intro g h1 h2
    have : g = 1 ∨ g = 2 := by simp [data] at h2; omega
    rcases this with rfl | rfl <;> decide +kernel
  bounds := ⟨[2000000, 500000], rfl, by constructor <;> simp [data, lowerBounds]; norm_num⟩
  max := by constructor <;> simp [data, upperBounds]; norm_num
  usable := by
    constructor
    · simp [data]
    · simp [data]; norm_num
    · simp [data]; norm_num
    · simp [data]; norm_num
  noMin := by simp [data]
  nuVaries := by
    rintro - out ⟨hl, h⟩ ⟨l, c, hf, hc⟩
    cases hf
    match out, hl with
    | [x, y], _ =>
      have e1 := (h 0 1000000 3 x rfl rfl rfl).1 2 ⟨by decide, by decide, ⟨500000, .inl ⟨rfl, rfl⟩, by norm_num [data]⟩, ⟨2000000, .inr ⟨by decide, rfl⟩, by norm_num⟩⟩
      have e2 := (h 1 3000000 4 y rfl rfl rfl).1 1 ⟨by decide, by decide, ⟨2000000, .inr ⟨by decide, rfl⟩, by norm_num [data]⟩, ⟨4000000, .inl ⟨rfl, rfl⟩, by norm_num⟩⟩
      have h1 := hc x (by simp)
      have h2 := hc y (by simp)
      simp [data] at e1 e2
      rw [h1] at e1; rw [h2] at e2
      rw [e1] at e2
      norm_num at e2

def sampled : Editor ℚ := (sampleMts editor 0 [input]).1

theorem sampled_ok : sampleMts editor 0 [input] = (sampled, .ok ()) := Prod.ext rfl (by decide +kernel)

def jobs : List (Job ℚ × Nat) := [(⟨[3, 4], [3 / 2, 8], 9999⟩, 28)]

theorem replaces : List.Forall₂ (fun mt js => Replaces editor sampled mt js ∧ (mt = 452 → ∀ j ∈ js, j.maxReplaces = 9999))
    (sampled.adjusted.insertionSort (· ≤ ·)) (jobs.map fun js => [js.1]) := by
  have e : sampled.adjusted.insertionSort (· ≤ ·) = [452] := by decide +kernel
  rw [e]
  refine .cons ⟨.inl ⟨by decide, [3, 4], [3 / 2, 8], by decide +kernel, by decide +kernel, 9999, rfl, by simp⟩, by simp⟩ .nil

theorem check0 : check writer.singleLine (formatMcnp fmtE [3, 4]) 507 28 = true := by decide +kernel

theorem occurs (pre : List (Job ℚ × Nat)) (js : Job ℚ × Nat) (post : List (Job ℚ × Nat)) (h : jobs = pre ++ js :: post) :
    FoundAt fmtE (runGroup fmtE writer (pre.map Prod.fst)).1.singleLine js.1 js.2 := by
  match pre, h with
  | [], h =>
    simp only [jobs, List.nil_append, List.cons.injEq] at h
    obtain ⟨rfl, rfl⟩ := h
    exact .inl (occurs_check 507 check0)
  | a :: pre, h =>
    have := congrArg List.length h
    simp [jobs] at this

theorem covers {js : Job ℚ × Nat} (h : js ∈ jobs) {i : Nat} (hc : Covers js i) : 28 ≤ i ∧ i < 30 := by
  simp only [jobs, List.mem_singleton] at h
  subst h
  unfold Covers at hc
  simp at hc
  omega

theorem e1 : JXS table 1 = some 1 := by decide +kernel
theorem e2 : JXS table 2 = some 16 := by decide +kernel
theorem e3 : JXS table 3 = some 31 := by decide +kernel
theorem e5 : JXS table 5 = some 35 := by decide +kernel
theorem e6 : JXS table 6 = some 37 := by decide +kernel
theorem e7 : JXS table 7 = some 39 := by decide +kernel

/-- Positions 16 to 30 and from 48 on are not part of the structure. -/
theorem not_structural {p : Nat} (h : 16 ≤ p ∧ p < 31 ∨ 48 ≤ p) : ¬ Structural table content p := by
  have n1 : content.energies.length = 3 := rfl
  have n2 : content.reactions.length = 2 := rfl
  rintro (⟨j, hj, h1, h2⟩ | ⟨j, hj, h1, h2⟩ | ⟨j, hj, r, hr, h1⟩)
  · rw [e1] at hj
    simp only [Option.some.injEq] at hj
    omega
  · rw [e3, e6] at hj
    simp only [Option.some.injEq] at hj
    omega
  · rw [e7] at hj
    simp only [Option.some.injEq] at hj
    simp only [content, List.mem_cons, List.not_mem_nil, or_false] at hr
    rcases hr with rfl | rfl <;> simp only at h1 <;> omega

theorem not_mark {p : Nat} (h : p < 35 ∨ 35 < p) : ¬ FissionMark table 0 p := by
  rintro ⟨j, hj, rfl⟩
  rw [e5] at hj
  simp only [Option.some.injEq] at hj
  omega

def nu : Tab ℚ := ⟨[], [], [1, 3], [3, 4]⟩

theorem notXs : NotXs table content 16 := by
  constructor
  · intro j hj hh
    rw [e1] at hj
    simp only [Option.some.injEq] at hj
    have n1 : content.energies.length = 3 := rfl
    omega
  · intro j hj r hr hh
    rw [e7] at hj
    simp only [Option.some.injEq] at hj
    omega

theorem holdsNu : HoldsNu table content nu :=
  ⟨16, 7, by decide +kernel, by decide, by decide, by decide +kernel, notXs, at_of_take (by decide) (by decide +kernel), by
    refine ⟨rfl, rfl, ?_, ?_⟩ <;> decide +kernel⟩

theorem isFission : IsFission table 0 := ⟨35, 1, by decide +kernel, by decide +kernel, by decide +kernel, by decide⟩

theorem last0 : content.Last 0 ⟨18, 1, [8, 9, 10], 1⟩ := by
  refine ⟨rfl, ?_⟩
  intro j r' hj hr'
  match j, hj with
  | 1, _ => cases hr'; decide
  | j + 2, _ => simp [content] at hr'

theorem x16 : XSS table 16 = some (-7) := by decide +kernel

theorem not_frame {p : Nat} (h : 29 ≤ p) : ¬ NuFrame table nu p := by
  rintro ⟨j, m, hj, hm, h'⟩
  rw [e2] at hj
  simp only [Option.some.injEq] at hj
  obtain rfl : j = 16 := by omega
  rw [x16] at hm
  simp only [Option.some.injEq, neg_inj] at hm
  obtain rfl : m = 7 := by exact_mod_cast hm.symm
  have : nuHead nu = 5 := rfl
  omega

-- All hypotheses of C233 for nu-bar hold.
example : ∃ text', render fmtE parse [input] text 0 = .ok text' ∧ ∀ file' ed', parse text' = .ok file' → init file' none = .ok ed' →
    getEnergy ed' 452 = .ok (.arr [1000000, 3000000]) ∧ ∃ out, getSigma ed' 452 none false = .ok (.arr out) ∧ out.length = 2 := by
  obtain ⟨text', h1, h2⟩ := C233_nu_file aceText holds load_table init_file sound (k := 0) (ins := [input])
    (fun inp hinp => .inl ⟨data, by rw [List.mem_singleton.mp hinp]; exact fits⟩) (by simp) sampled_ok read_ok replaces jobs rfl (by decide +kernel)
    (by
      have h : ∀ js ∈ jobs, ∀ x ∈ js.1.new, x = 0 ∨ 1 / 10 ≤ |x| ∧ |x| < 1000 := by decide +kernel
      exact fun js hjs x hx => finite_of (h js hjs x hx)) (by simp [jobs])
    (fun js hjs i hc => not_structural (by have := covers hjs hc; omega)) occurs last0 rfl isFission holdsNu (by decide +kernel)
    (fun js hjs i hc => ⟨not_mark (by have := covers hjs hc; omega), not_frame (by have := covers hjs hc; omega)⟩)
  refine ⟨text', h1, fun file' ed' h3 h4 => ?_⟩
  obtain ⟨h5, out, h6, h7, _⟩ := h2 file' ed' h3 h4 input (List.mem_singleton_self _) data fits rfl
    (⟨[3, 4], [3 / 2, 8], 9999⟩, 28) (by simp [jobs]) (by decide +kernel) (by decide +kernel) ⟨16, 7, e2, x16, rfl⟩ (by decide +kernel) (by decide +kernel)
  exact ⟨h5, out, h6, h7⟩

-- The written file is loaded again, and has the sampled nu-bar.
example : ((render fmtE parse [input] text 0).bind fun text' => (parse text').bind fun file' => (init file' none).bind fun ed' =>
    getSigma ed' 452 none false) = .ok (.arr [3 / 2, 8]) := by decide +kernel

/-! A fission spectrum whose densities are replaced. -/

def spectra : List (Spectrum ℚ) := [⟨16, 2, [0, 2], [1 / 2, 1 / 2], [0, 1]⟩, ⟨24, 2, [0, 4], [1 / 4, 1 / 4], [0, 1]⟩]

theorem holdsChi : HoldsChi table 0 [1, 3] spectra :=
  ⟨48, 49, 1, 10, [], [], by decide +kernel, by decide +kernel, by decide, by decide, by decide +kernel, by decide +kernel, by decide +kernel, by decide,
    by decide +kernel, rfl, rfl, at_of_take (by decide) (by decide +kernel), by
      intro s hs
      simp only [spectra, List.mem_cons, List.not_mem_nil, or_false] at hs
      rcases hs with rfl | rfl
      · exact ⟨by decide, by decide, rfl, rfl, by decide +kernel, at_of_take (by decide) (by decide +kernel)⟩
      · exact ⟨by decide, by decide, rfl, rfl, by decide +kernel, at_of_take (by decide) (by decide +kernel)⟩⟩

theorem promptFirst : PromptFirst table content := ⟨16, by decide +kernel, by decide, -7, by decide +kernel, Or.inl ⟨by decide +kernel, notXs⟩⟩

def chiJobs : List (Job ℚ × Nat) := [(⟨[1 / 2, 1 / 2], [1 / 4, 3 / 4], 1⟩, 67)]

def chiXss : List ℚ := (table.xss.set 67 (1 / 4)).set 68 (3 / 4)

theorem chi_covers {js : Job ℚ × Nat} (h : js ∈ chiJobs) {i : Nat} (hc : Covers js i) : 67 ≤ i ∧ i < 69 ∧ js = (⟨[1 / 2, 1 / 2], [1 / 4, 3 / 4], 1⟩, 67) := by
  simp only [chiJobs, List.mem_singleton] at h
  subst h
  unfold Covers at hc
  simp at hc
  exact ⟨by omega, by omega, rfl⟩

theorem chi_replaced : Replaced chiJobs table.xss chiXss := by
  refine ⟨by simp [chiXss], ?_, ?_⟩
  · intro js hjs i hc
    obtain ⟨h1, h2, rfl⟩ := chi_covers hjs hc
    have : i = 67 ∨ i = 68 := by omega
    rcases this with rfl | rfl <;> decide +kernel
  · intro i hi
    have := hi _ (List.mem_singleton_self _)
    unfold Covers at this
    simp at this
    unfold chiXss
    rw [List.getElem?_set_ne (by omega), List.getElem?_set_ne (by omega)]

theorem not_chiFrame {p : Nat} (h : p = 68 ∨ p = 69) : ¬ ChiFrame table 0 [1, 3] spectra p := by
  rintro ⟨j10, j11, loc, idat, n, h1, h2, h3, h4, h5, h6⟩
  have f1 : JXS table 10 = some 48 := by decide +kernel
  have f2 : JXS table 11 = some 49 := by decide +kernel
  rw [f1] at h1
  rw [f2] at h2
  simp only [Option.some.injEq] at h1 h2
  obtain rfl : j10 = 48 := by omega
  obtain rfl : j11 = 49 := by omega
  rw [show XSS table (48 + 0) = some 1 by decide +kernel] at h3
  simp only [Option.some.injEq] at h3
  obtain rfl : loc = 1 := by exact_mod_cast h3.symm
  rw [show XSS table (49 + 1 + 1) = some 10 by decide +kernel] at h4
  simp only [Option.some.injEq] at h4
  obtain rfl : idat = 10 := by exact_mod_cast h4.symm
  rw [show XSS table (49 + 10 - 1) = some 0 by decide +kernel] at h5
  simp only [Option.some.injEq] at h5
  obtain rfl : n = 0 := by exact_mod_cast h5.symm
  simp only [spectra, List.mem_cons, List.not_mem_nil, or_false, exists_eq_or_imp, exists_eq_left, List.length_cons, List.length_nil] at h6
  omega

-- All hypotheses of C233 for a fission spectrum hold, and the changed table is loaded.
example : ∃ T ed, load { table with xss := chiXss } = .ok T ∧ init T none = .ok ed ∧
    getEnergy ed 1018 = .ok (.pdfs [[0, 2000000], [0, 4000000]]) ∧ getSigma ed 1018 none false = .ok (.pdfs [[1 / 4000000, 3 / 4000000], [1 / 4000000, 1 / 4000000]]) := by
  obtain ⟨T, ed, h1, h2⟩ : ∃ T ed, load { table with xss := chiXss } = .ok T ∧ init T none = .ok ed := by
    have : ((load { table with xss := chiXss }).bind fun T => init T none).toOption.isSome = true := by decide +kernel
    cases hl : load { table with xss := chiXss } with
    | error e => rw [hl] at this; cases this
    | ok T =>
      rw [hl] at this
      cases hi : init T none with
      | error e => simp [Except.bind, hi, Except.toOption] at this
      | ok ed => exact ⟨T, ed, rfl, hi⟩
  refine ⟨T, ed, h1, h2, ?_⟩
  obtain ⟨out, g1, g2⟩ := C233_chi holds chi_replaced (fun js hjs i hc => not_structural (by have := chi_covers hjs hc; omega)) h1 h2 last0 rfl isFission promptFirst holdsChi
    (fun js hjs i hc => ⟨not_mark (by have := chi_covers hjs hc; omega), by rw [e2]; have := chi_covers hjs hc; simp only [ne_eq, Option.some.injEq]; omega,
      not_chiFrame (by have := chi_covers hjs hc; omega)⟩)
  match out, g1 with
  | [a, b], .cons ha (.cons hb .nil) =>
    obtain ⟨-, -, -, -, -, ha⟩ := ha
    obtain ⟨-, -, -, -, -, hb⟩ := hb
    have pa := ha 67 ⟨49, by decide +kernel, rfl⟩
    have pb := hb 75 ⟨49, by decide +kernel, rfl⟩
    have free : ∀ s, 69 ≤ s → ∀ js ∈ chiJobs, ∀ k < 2, ¬ Covers js (s + k) := fun s hs js hjs k _ hc => by have := chi_covers hjs hc; omega
    have a1 : a.pdf = [1 / 4, 3 / 4] := (pa.1.1 _ (List.mem_singleton_self _) rfl rfl rfl).trans (by decide +kernel)
    have a2 := pa.2.2 (free _ (by simp))
    have b1 := pb.1.2 (free _ (by simp))
    have b2 := pb.2.2 (free _ (by simp))
    obtain ⟨-, q1, q2⟩ := g2 (by
      intro s hs
      simp only [List.mem_cons, List.not_mem_nil, or_false] at hs
      rcases hs with rfl | rfl
      · rw [a1, a2]; decide +kernel
      · rw [b1, b2]; decide +kernel)
    refine ⟨by rw [q1]; decide +kernel, ?_⟩
    rw [q2]
    simp only [List.map_cons, List.map_nil, a1, b1]
    norm_num

end ASAPy.EndToEnd.Example.Nu
