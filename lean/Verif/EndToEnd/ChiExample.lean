import Verif.EndToEnd.Chi

/-! # A sample of the fission spectrum of a small ACE file (hypotheses of C233) -/

set_option linter.unusedSimpArgs false

namespace ASAPy.EndToEnd.ChiExample
open ASAPy.WriteAce ASAPy.AceData ASAPy.Str ASAPy.Sampled ASAPy.FromAce ASAPy.MapGroups
open ASAPy.Boxer (number)
open ASAPy.Ace (Editor init getSigma getEnergy getChiDistro WellFormed Chi)
open ASAPy.EndToEnd.Example (starts check occurs_check)

local instance : ExpLog ℚ := ⟨id, id⟩

/-- The table of `FromAce.Example`, with a positive capture cross section and spectra whose cumulated probabilities are found at their places. -/
def table : AceData.Table ℚ := { FromAce.Example.table with xss := ((FromAce.Example.table.xss.set 46 1).set 69 (1 / 8)).set 77 (3 / 16), pairs := List.replicate 16 (0, 0) }

def content : Content ℚ := { FromAce.Example.content with reactions := [⟨18, 1, [8, 9, 10], 1⟩, ⟨102, 2, [5, 1], 6⟩] }

def header : List (List Char) :=
  [" 92235.80c  233.000000  2.5300E-08   12/20/12\n".toList, "U235 example\n".toList] ++
  List.replicate 4 "      0   0.0         0   0.0       0   0.0       0   0.0\n".toList ++
  ["       79    92235        3        2        1        0        0        0\n".toList,
   "        0        0        0        0        0        0        0        0\n".toList] ++
  ["        1       16       31       33       35       37       39        0\n".toList,
   "        0       48       49        0        0        0        0        0\n".toList] ++
  List.replicate 2 "        0        0        0        0        0        0        0        0\n".toList

def lines : List (List Char) := layoutLines (table.xss.map fmtE)

def text : List Char := header.flatten ++ lines.flatten

theorem header_ok : HeaderOk header := by
  refine ⟨?_, by decide +kernel⟩
  have h : ∀ l ∈ header, l = l.dropLast ++ ['\n'] ∧ '\n' ∉ l.dropLast := by decide +kernel
  exact fun l hl => ⟨_, h l hl⟩

theorem values_words : ∀ v ∈ table.xss.map fmtE, Word v ∧ v.length ≤ 19 := by
  intro v hv
  obtain ⟨x, _, rfl⟩ := List.mem_map.mp hv
  exact ⟨fmtE_formats x, (fmtE_word x).2⟩

theorem aceText : AceText table text header lines where
  text_eq := rfl
  header := header_ok
  start := ⟨header[0]'(by decide), header[1]'(by decide), [], Boxer.slice header 2 6, Boxer.slice header 6 8, Boxer.slice header 8 12,
    by decide +kernel, .inl ⟨rfl, '9', '2', "235.80c".toList, "233.000000".toList, "2.5300E-08".toList, ["12/20/12".toList], by decide +kernel, by decide,
    by decide +kernel, by decide +kernel, by decide +kernel⟩, by decide, by decide, by decide,
    ⟨wordPairs (Boxer.slice header 2 6), by decide +kernel, reads_of_mapE (by decide +kernel), reads_of_mapE (by decide +kernel)⟩,
    reads_of_mapE (by decide +kernel), reads_of_mapE (by decide +kernel), by decide +kernel⟩
  lines := layoutLines_line _ fun v hv => (values_words v hv).1
  values := by
    refine ⟨by rw [lines, layoutLines_length, List.length_map], ?_, ?_⟩
    · intro l hl
      obtain ⟨body, rfl, _⟩ := layoutLines_line _ (fun v hv => (values_words v hv).1) l hl
      simp
    · rw [lines, words_layoutLines _ (fun v hv => (values_words v hv).1) fun v hv => (values_words v hv).2]
      have h : ∀ x ∈ table.xss, number (fmtE x) = some (x, []) := by decide +kernel
      rw [List.forall₂_map_left_iff, List.forall₂_same]
      exact h
  even := layoutLines_even (fun v hv => (values_words v hv).2) (by decide)
  narrow := by
    rw [lines, words_layoutLines _ (fun v hv => (values_words v hv).1) fun v hv => (values_words v hv).2]
    exact fun v hv => (values_words v hv).2
  many := by decide

theorem holds : FromAce.Holds table content where
  numEnergies := by decide +kernel
  numReactions := by decide +kernel
  positive := by decide +kernel
  main := ⟨1, by decide +kernel, at_of_take (by decide) (by decide +kernel)⟩
  lengths := by decide +kernel
  lists := ⟨31, 37, 39, by decide +kernel, by decide +kernel, by decide +kernel, at_of_take (by decide) (by decide +kernel),
    at_of_take (by decide) (by decide +kernel), by
      intro r hr
      simp only [content, List.mem_cons, List.not_mem_nil, or_false] at hr
      rcases hr with rfl | rfl
      · exact ⟨by decide, by decide, at_of_take (by decide) (by decide +kernel), by decide, by decide⟩
      · exact ⟨by decide, by decide, at_of_take (by decide) (by decide +kernel), by decide, by decide⟩⟩

def file : Ace.Table ℚ := ⟨["294K".toList],
  [(1, ⟨[("294K".toList, .linlin [1000000, 2000000, 3000000] [20, 21, 22])], none, none⟩),
   (101, ⟨[("294K".toList, .linlin [1000000, 2000000, 3000000] [5, 6, 7])], none, none⟩),
   (2, ⟨[("294K".toList, .linlin [1000000, 2000000, 3000000] [10, 0, 12])], none, none⟩),
   (18, ⟨[("294K".toList, .linlin [1000000, 2000000, 3000000] [8, 9, 10])],
      some ⟨true, ⟨[1000000, 3000000], [3, 4], [2], [2]⟩⟩,
      some ⟨true, [1000000, 3000000], [⟨[0, 2000000], [1 / 2000000, 1 / 2000000], [1 / 8, 1]⟩, ⟨[0, 4000000], [1 / 4000000, 1 / 4000000], [3 / 16, 1]⟩]⟩⟩),
   (102, ⟨[("294K".toList, .linlin [2000000, 3000000] [5, 1])], none, none⟩)]⟩

theorem load_table : load table = .ok file := by decide +kernel

def editor : Editor ℚ := ⟨file, file, "294K".toList, [1, 101, 2, 18, 102, 452, 1018], [], []⟩

theorem init_file : init file none = .ok editor := by decide +kernel

theorem sound : content.Sound := ⟨by decide, by
  intro r hr
  simp only [content, List.mem_cons, List.not_mem_nil, or_false] at hr
  rcases hr with rfl | rfl <;> decide⟩


def chi : Chi ℚ := ⟨true, [1000000, 3000000], [⟨[0, 2000000], [1 / 2000000, 1 / 2000000], [1 / 8, 1]⟩, ⟨[0, 4000000], [1 / 4000000, 1 / 4000000], [3 / 16, 1]⟩]⟩

theorem chi_ok : getChiDistro editor false = .ok chi := by decide +kernel

/-- Chi with two groups, relative values 2 and 1/2. -/
def input : Input ℚ := ⟨1018, [[(1, 2), (2, 1 / 2)]], .ok ([5000000, 1000000], [1000000, 500])⟩

theorem usable : Usable ([5000000, 1000000] : List ℚ) 5000000 500 := by
  constructor
  · simp
  · simp; norm_num
  · simp; norm_num
  · simp; norm_num

theorem fits : FitsChi chi 0 input [5000000, 1000000] 5000000 500 (fun g => if g = 1 then 2 else 1 / 2) where
  mt := rfl
  sample := by
    refine ⟨[(1, 2), (2, 1 / 2)], rfl, ?_⟩
    intro g h1 h2
    have : g = 1 ∨ g = 2 := by simp at h2; omega
    rcases this with rfl | rfl <;> decide +kernel
  bounds := ⟨[1000000, 500], rfl, by constructor <;> simp [lowerBounds]; norm_num⟩
  max := by constructor <;> simp [upperBounds]; norm_num
  usable := usable
  some := by simp [chi]
  dists := by
    intro d hd
    simp only [chi, List.mem_cons, List.not_mem_nil, or_false] at hd
    rcases hd with rfl | rfl
    · have h1 : (⟨[0, 2000000], [1 / 2000000, 1 / 2000000], [1 / 8, 1]⟩ : Ace.Dist ℚ).Shaped := ⟨rfl, rfl, by simp⟩
      have h2 : ∀ v ∈ ([1 / 2000000, 1 / 2000000] : List ℚ), 0 ≤ v := by decide +kernel
      have h3 : (500 : ℚ) ∉ ([0, 2000000] : List ℚ) := by decide +kernel
      exact ⟨h1, h2, h3, fun q hq => (C232_norm usable (fun g _ _ => by split <;> norm_num) h1 h2 h3 (by decide +kernel) (by decide +kernel) ⟨0, 1 / 2000000, rfl, by norm_num⟩ hq).2⟩
    · have h1 : (⟨[0, 4000000], [1 / 4000000, 1 / 4000000], [3 / 16, 1]⟩ : Ace.Dist ℚ).Shaped := ⟨rfl, rfl, by simp⟩
      have h2 : ∀ v ∈ ([1 / 4000000, 1 / 4000000] : List ℚ), 0 ≤ v := by decide +kernel
      have h3 : (500 : ℚ) ∉ ([0, 4000000] : List ℚ) := by decide +kernel
      exact ⟨h1, h2, h3, fun q hq => (C232_norm usable (fun g _ _ => by split <;> norm_num) h1 h2 h3 (by decide +kernel) (by decide +kernel) ⟨0, 1 / 4000000, rfl, by norm_num⟩ hq).2⟩

def sampled : Editor ℚ := (sampleMts editor 0 [input]).1

theorem sampled_ok : sampleMts editor 0 [input] = (sampled, .ok ()) := Prod.ext rfl (by decide +kernel)

def writer : Writer := match WriteAce.read text with
  | .ok w => w
  | .error _ => ⟨[], []⟩

theorem read_ok : WriteAce.read text = .ok writer := by decide +kernel

def chi' : Chi ℚ := ⟨true, [1000000, 3000000], [⟨[0, 2000000], [1 / 4000000, 1 / 2000000], [1 / 16, 1]⟩, ⟨[0, 4000000], [1 / 8000000, 1 / 4000000], [3 / 32, 1]⟩]⟩

theorem chi'_ok : getChiDistro sampled false = .ok chi' := by decide +kernel

/-- What is replaced: the densities of both spectra, then their cumulated probabilities. -/
def jobs : List (Job ℚ × Nat) :=
  [(⟨[1 / 2, 1 / 2], [1 / 4, 1 / 2], 1⟩, 67), (⟨[1 / 4, 1 / 4], [1 / 8, 1 / 4], 1⟩, 75), (⟨[1 / 8, 1], [1 / 16, 1], 1⟩, 69), (⟨[3 / 16, 1], [3 / 32, 1], 1⟩, 77)]

theorem replaces : List.Forall₂ (fun mt js => Replaces editor sampled mt js ∧ (mt = 452 → ∀ j ∈ js, j.maxReplaces = 9999))
    (sampled.adjusted.insertionSort (· ≤ ·)) [jobs.map Prod.fst] := by
  have e : sampled.adjusted.insertionSort (· ≤ ·) = [1018] := by decide +kernel
  rw [e]
  exact .cons ⟨.inr ⟨rfl, chi, chi', chi_ok, chi'_ok, rfl, by decide +kernel, by decide +kernel, by decide +kernel⟩, by simp⟩ .nil

theorem check0 : check writer.singleLine (formatMcnp fmtE [1 / 2, 1 / 2]) 1209 67 = true := by decide +kernel

theorem check1 : check (runGroup fmtE writer ((jobs.take 1).map Prod.fst)).1.singleLine (formatMcnp fmtE [1 / 4, 1 / 4]) 1353 75 = true := by decide +kernel

theorem check2 : check (runGroup fmtE writer ((jobs.take 2).map Prod.fst)).1.singleLine (formatMcnp fmtE [1 / 8, 1]) 1245 69 = true := by decide +kernel

theorem check3 : check (runGroup fmtE writer ((jobs.take 3).map Prod.fst)).1.singleLine (formatMcnp fmtE [3 / 16, 1]) 1389 77 = true := by decide +kernel

theorem occurs (pre : List (Job ℚ × Nat)) (js : Job ℚ × Nat) (post : List (Job ℚ × Nat)) (h : jobs = pre ++ js :: post) :
    FoundAt fmtE (runGroup fmtE writer (pre.map Prod.fst)).1.singleLine js.1 js.2 := by
  match pre, h with
  | [], h =>
    simp only [jobs, List.cons_append, List.nil_append, List.cons.injEq] at h
    obtain ⟨rfl, rfl⟩ := h
    exact .inl (occurs_check 1209 check0)
  | [a], h =>
    simp only [jobs, List.cons_append, List.nil_append, List.cons.injEq] at h
    obtain ⟨rfl, rfl, rfl⟩ := h
    exact .inl (occurs_check 1353 check1)
  | [a, b], h =>
    simp only [jobs, List.cons_append, List.nil_append, List.cons.injEq] at h
    obtain ⟨rfl, rfl, rfl, rfl⟩ := h
    exact .inl (occurs_check 1245 check2)
  | [a, b, c], h =>
    simp only [jobs, List.cons_append, List.nil_append, List.cons.injEq] at h
    obtain ⟨rfl, rfl, rfl, rfl, rfl⟩ := h
    exact .inl (occurs_check 1389 check3)
  | a :: b :: c :: d :: pre, h =>
    have := congrArg List.length h
    simp [jobs] at this

theorem finite_of {x : ℚ} (h1 : 1 / 1000 ≤ |x|) (h2 : |x| < 1000) : Finite x := by
  refine Or.inr ⟨le_trans ?_ h1, lt_of_lt_of_le h2 ?_⟩
  · rw [div_le_div_iff₀ (by positivity) (by norm_num), one_mul, one_mul]
    exact le_trans (by norm_num) (pow_le_pow_right₀ (by norm_num) (show 3 ≤ 900 by norm_num) : (10:ℚ) ^ 3 ≤ 10 ^ 900)
  · exact le_trans (by norm_num) (pow_le_pow_right₀ (by norm_num) (show 3 ≤ 900 by norm_num) : (10:ℚ) ^ 3 ≤ 10 ^ 900)

theorem jobs_finite : ∀ js ∈ jobs, ∀ x ∈ js.1.new, Finite x := by
  have h : ∀ js ∈ jobs, ∀ x ∈ js.1.new, 1 / 1000 ≤ |x| ∧ |x| < 1000 := by decide +kernel
  exact fun js hjs x hx => finite_of (h js hjs x hx).1 (h js hjs x hx).2

theorem jobs_disjoint : jobs.Pairwise (fun a b => ∀ i, ¬ (Covers a i ∧ Covers b i)) := by
  simp only [jobs, List.pairwise_cons, List.mem_cons, List.not_mem_nil, or_false, forall_eq_or_imp, forall_eq, Covers, List.length_cons, List.length_nil,
    List.Pairwise.nil, and_true, IsEmpty.forall_iff, implies_true]
  refine ⟨⟨?_, ?_, ?_⟩, ⟨?_, ?_⟩, ?_⟩ <;> intro i <;> omega

theorem covers {js : Job ℚ × Nat} (h : js ∈ jobs) {i : Nat} (hc : Covers js i) : 67 ≤ i ∧ i < 71 ∨ 75 ≤ i ∧ i < 79 := by
  simp only [jobs, List.mem_cons, List.not_mem_nil, or_false] at h
  unfold Covers at hc
  rcases h with rfl | rfl | rfl | rfl <;> simp at hc <;> omega

theorem e1 : JXS table 1 = some 1 := by decide +kernel
theorem e2 : JXS table 2 = some 16 := by decide +kernel
theorem e3 : JXS table 3 = some 31 := by decide +kernel
theorem e5 : JXS table 5 = some 35 := by decide +kernel
theorem e6 : JXS table 6 = some 37 := by decide +kernel
theorem e7 : JXS table 7 = some 39 := by decide +kernel
theorem e10 : JXS table 10 = some 48 := by decide +kernel
theorem e11 : JXS table 11 = some 49 := by decide +kernel

theorem not_structural {p : Nat} (h : 48 ≤ p) : ¬ Structural table content p := by
  have n1 : content.energies.length = 3 := rfl
  have n2 : content.reactions.length = 2 := rfl
  rintro (⟨j, hj, h1, h2⟩ | ⟨j, hj, h1, h2⟩ | ⟨j, hj, r, hr, h1⟩)
  · rw [e1] at hj
    simp only [Option.some.injEq] at hj
    omega
  · rw [e3, e6] at hj
    simp only [Option.some.injEq] at hj
    omega
  · rw [e7] at hj
    simp only [Option.some.injEq] at hj
    simp only [content, List.mem_cons, List.not_mem_nil, or_false] at hr
    rcases hr with rfl | rfl <;> simp only at h1 <;> omega

theorem not_mark {p : Nat} (h : 48 ≤ p) : ¬ FissionMark table 0 p := by
  rintro ⟨j, hj, rfl⟩
  rw [e5] at hj
  simp only [Option.some.injEq] at hj
  omega

theorem notXs : NotXs table content 16 := by
  constructor
  · intro j hj hh
    rw [e1] at hj
    simp only [Option.some.injEq] at hj
    have n1 : content.energies.length = 3 := rfl
    omega
  · intro j hj r hr hh
    rw [e7] at hj
    simp only [Option.some.injEq] at hj
    omega

theorem isFission : IsFission table 0 := ⟨35, 1, by decide +kernel, by decide +kernel, by decide +kernel, by decide⟩

theorem promptFirst : PromptFirst table content := ⟨16, by decide +kernel, by decide, -7, by decide +kernel, Or.inl ⟨by decide +kernel, notXs⟩⟩

theorem last0 : content.Last 0 ⟨18, 1, [8, 9, 10], 1⟩ := by
  refine ⟨rfl, ?_⟩
  intro j r' hj hr'
  match j, hj with
  | 1, _ => cases hr'; decide
  | j + 2, _ => simp [content] at hr'

def spectra : List (Spectrum ℚ) := [⟨16, 2, [0, 2], [1 / 2, 1 / 2], [1 / 8, 1]⟩, ⟨24, 2, [0, 4], [1 / 4, 1 / 4], [3 / 16, 1]⟩]

theorem holdsChi : HoldsChi table 0 [1, 3] spectra :=
  ⟨48, 49, 1, 10, [], [], by decide +kernel, by decide +kernel, by decide, by decide, by decide +kernel, by decide +kernel, by decide +kernel, by decide,
    by decide +kernel, rfl, rfl, at_of_take (by decide) (by decide +kernel), by
      intro s hs
      simp only [spectra, List.mem_cons, List.not_mem_nil, or_false] at hs
      rcases hs with rfl | rfl
      · exact ⟨by decide, by decide, rfl, rfl, by decide +kernel, at_of_take (by decide) (by decide +kernel)⟩
      · exact ⟨by decide, by decide, rfl, rfl, by decide +kernel, at_of_take (by decide) (by decide +kernel)⟩⟩

theorem not_chiFrame {p : Nat} (h : 68 ≤ p ∧ p < 72 ∨ 76 ≤ p ∧ p < 80) : ¬ ChiFrame table 0 [1, 3] spectra p := by
  rintro ⟨j10, j11, loc, idat, n, h1, h2, h3, h4, h5, h6⟩
  rw [e10] at h1
  rw [e11] at h2
  simp only [Option.some.injEq] at h1 h2
  obtain rfl : j10 = 48 := by omega
  obtain rfl : j11 = 49 := by omega
  rw [show XSS table (48 + 0) = some 1 by decide +kernel] at h3
  simp only [Option.some.injEq] at h3
  obtain rfl : loc = 1 := by exact_mod_cast h3.symm
  rw [show XSS table (49 + 1 + 1) = some 10 by decide +kernel] at h4
  simp only [Option.some.injEq] at h4
  obtain rfl : idat = 10 := by exact_mod_cast h4.symm
  rw [show XSS table (49 + 10 - 1) = some 0 by decide +kernel] at h5
  simp only [Option.some.injEq] at h5
  obtain rfl : n = 0 := by exact_mod_cast h5.symm
  simp only [spectra, List.mem_cons, List.not_mem_nil, or_false, exists_eq_or_imp, exists_eq_left, List.length_cons, List.length_nil] at h6
  omega

theorem replacedAt (i : Nat) (s : Spectrum ℚ) (d d' : Ace.Dist ℚ) (h1 : spectra[i]? = some s) (h2 : chi.energyOut[i]? = some d) (h3 : chi'.energyOut[i]? = some d') : ReplacedAt table jobs s d d' := by
  match i with
  | 0 =>
    cases h1; cases h2; cases h3
    exact ⟨67, 1, 1, ⟨49, e11, rfl⟩, by norm_num [jobs], by norm_num [jobs]⟩
  | 1 =>
    cases h1; cases h2; cases h3
    exact ⟨75, 1, 1, ⟨49, e11, rfl⟩, by norm_num [jobs], by norm_num [jobs]⟩
  | i + 2 => simp [spectra] at h1

-- All hypotheses of C233 for the file of a sample of chi hold.
example : ∃ text', render fmtE parse [input] text 0 = .ok text' ∧ ∀ file' ed', parse text' = .ok file' → init file' none = .ok ed' →
    getEnergy ed' 1018 = .ok (.pdfs [[0, 2000000], [0, 4000000]]) ∧ ∃ outs, getSigma ed' 1018 none false = .ok (.pdfs outs) ∧ outs.length = 2 := by
  obtain ⟨text', h1, h2⟩ := C233_chi_file aceText holds load_table init_file sound (fun inp hinp => by rw [List.mem_singleton.mp hinp]; exact .inr ⟨_, _, _, _, _, chi_ok, fits⟩) (by simp) (List.mem_singleton_self _) chi_ok fits sampled_ok chi'_ok read_ok replaces jobs rfl (by decide +kernel) jobs_finite jobs_disjoint
    (fun js hjs i hc => not_structural (by have := covers hjs hc; omega)) occurs last0 rfl isFission promptFirst holdsChi
    (fun js hjs i hc => ⟨not_mark (by have := covers hjs hc; omega), by rw [e2]; have := covers hjs hc; simp only [ne_eq, Option.some.injEq]; omega,
      not_chiFrame (by have := covers hjs hc; omega)⟩) replacedAt (by decide +kernel)
  refine ⟨text', h1, fun file' ed' h3 h4 => ?_⟩
  obtain ⟨h5, outs, h6, h7, -⟩ := h2 file' ed' h3 h4
  exact ⟨h5, outs, h6, h7⟩

-- The written file is loaded again, and has the sampled spectra.
example : ((render fmtE parse [input] text 0).bind fun text' => (parse text').bind fun file' => (init file' none).bind fun ed' =>
    getSigma ed' 1018 none false) = .ok (.pdfs [[1 / 4000000, 1 / 2000000], [1 / 8000000, 1 / 4000000]]) := by decide +kernel

/-! Replacing by text is not safe without the condition on places. -/

/-- The same file, where the cumulated probabilities of the second spectrum are those that the first one gets. -/
def table2 : AceData.Table ℚ := { table with xss := table.xss.set 77 (1 / 16) }

def text2 : List Char := header.flatten ++ (layoutLines (table2.xss.map fmtE)).flatten

/-- The spectra that the editor has after sampling, with their cumulated probabilities. -/
def wanted : Except PyErr (List (List ℚ)) := (parse text2).bind fun f => (init f none).bind fun ed =>
  (getChiDistro (sampleMts ed 0 [input]).1 false).map fun c => c.energyOut.map (·.c)

/-- Those of the file of the sample. -/
def written : Except PyErr (List (List ℚ)) := (render fmtE parse [input] text2 0).bind fun text' => (parse text').bind fun f => (init f none).bind fun ed =>
  (getChiDistro ed false).map fun c => c.energyOut.map (·.c)

/-- **C233, refuted without the condition on the places**: where the new cumulated probabilities of the first spectrum are the old ones of the second, the replacement of the second is made in the first; the file then has
the probabilities of the second spectrum in the first, and the second is not replaced. -/
theorem C233_places_refuted : wanted = .ok [[1 / 16, 1], [1 / 32, 1]] ∧ written = .ok [[1 / 32, 1], [1 / 16, 1]] := by
  constructor <;> decide +kernel

end ASAPy.EndToEnd.ChiExample
