import Verif.EndToEnd.Props

/-! # A small ACE file, a sample of it, and its values (hypotheses of C85-C88) -/

set_option linter.unusedSimpArgs false

namespace ASAPy.EndToEnd.Example
open ASAPy.WriteAce ASAPy.AceData ASAPy.Str ASAPy.Sampled ASAPy.FromAce ASAPy.MapGroups
open ASAPy.Boxer (number)
open ASAPy.Ace (Editor init getSigma getEnergy WellFormed)

local instance : ExpLog ℚ := ⟨id, id⟩

/-- The table of `FromAce.Example`, with a positive capture cross section. -/
def table : AceData.Table ℚ := { FromAce.Example.table with xss := FromAce.Example.table.xss.set 46 1, pairs := List.replicate 16 (0, 0) }

def content : Content ℚ := { FromAce.Example.content with reactions := [⟨18, 1, [8, 9, 10], 1⟩, ⟨102, 2, [5, 1], 6⟩] }

def header : List (List Char) :=
  [" 92235.80c  233.000000  2.5300E-08   12/20/12\n".toList, "U235 example\n".toList] ++
  List.replicate 4 "      0   0.0         0   0.0       0   0.0       0   0.0\n".toList ++
  ["       79    92235        3        2        1        0        0        0\n".toList,
   "        0        0        0        0        0        0        0        0\n".toList] ++
  ["        1       16       31       33       35       37       39        0\n".toList,
   "        0       48       49        0        0        0        0        0\n".toList] ++
  List.replicate 2 "        0        0        0        0        0        0        0        0\n".toList

def lines : List (List Char) := layoutLines (table.xss.map fmtE)

def text : List Char := header.flatten ++ lines.flatten

theorem finite_of {x : ℚ} (h : x = 0 ∨ 1 / 10 ≤ |x| ∧ |x| < 1000) : Finite x := by
  rcases h with h | ⟨h1, h2⟩
  · exact Or.inl h
  · refine Or.inr ⟨le_trans ?_ h1, lt_of_lt_of_le h2 ?_⟩
    · rw [div_le_div_iff₀ (by positivity) (by norm_num), one_mul, one_mul]
      exact le_self_pow₀ (by norm_num) (by norm_num)
    · exact le_trans (by norm_num) (pow_le_pow_right₀ (by norm_num) (show 3 ≤ 900 by norm_num) : (10:ℚ) ^ 3 ≤ 10 ^ 900)

theorem header_ok : HeaderOk header := by
  refine ⟨?_, by decide +kernel⟩
  have h : ∀ l ∈ header, l = l.dropLast ++ ['\n'] ∧ '\n' ∉ l.dropLast := by decide +kernel
  exact fun l hl => ⟨_, h l hl⟩

theorem values_words : ∀ v ∈ table.xss.map fmtE, Word v ∧ v.length ≤ 19 := by
  intro v hv
  obtain ⟨x, _, rfl⟩ := List.mem_map.mp hv
  exact ⟨fmtE_formats x, (fmtE_word x).2⟩

theorem aceText : AceText table text header lines where
  text_eq := rfl
  header := header_ok
  start := ⟨header[0]'(by decide), header[1]'(by decide), [], Boxer.slice header 2 6, Boxer.slice header 6 8, Boxer.slice header 8 12,
    by decide +kernel, .inl ⟨rfl, '9', '2', "235.80c".toList, "233.000000".toList, "2.5300E-08".toList, ["12/20/12".toList], by decide +kernel, by decide,
    by decide +kernel, by decide +kernel, by decide +kernel⟩, by decide, by decide, by decide,
    ⟨wordPairs (Boxer.slice header 2 6), by decide +kernel, reads_of_mapE (by decide +kernel), reads_of_mapE (by decide +kernel)⟩,
    reads_of_mapE (by decide +kernel), reads_of_mapE (by decide +kernel), by decide +kernel⟩
  lines := layoutLines_line _ fun v hv => (values_words v hv).1
  values := by
    refine ⟨by rw [lines, layoutLines_length, List.length_map], ?_, ?_⟩
    · intro l hl
      obtain ⟨body, rfl, _⟩ := layoutLines_line _ (fun v hv => (values_words v hv).1) l hl
      simp
    · rw [lines, words_layoutLines _ (fun v hv => (values_words v hv).1) fun v hv => (values_words v hv).2]
      have h : ∀ x ∈ table.xss, number (fmtE x) = some (x, []) := by decide +kernel
      rw [List.forall₂_map_left_iff, List.forall₂_same]
      exact h
  even := layoutLines_even (fun v hv => (values_words v hv).2) (by decide)
  narrow := by
    rw [lines, words_layoutLines _ (fun v hv => (values_words v hv).1) fun v hv => (values_words v hv).2]
    exact fun v hv => (values_words v hv).2
  many := by decide

theorem holds : FromAce.Holds table content where
  numEnergies := by decide +kernel
  numReactions := by decide +kernel
  positive := by decide +kernel
  main := ⟨1, by decide +kernel, at_of_take (by decide) (by decide +kernel)⟩
  lengths := by decide +kernel
  lists := ⟨31, 37, 39, by decide +kernel, by decide +kernel, by decide +kernel, at_of_take (by decide) (by decide +kernel),
    at_of_take (by decide) (by decide +kernel), by
      intro r hr
      simp only [content, List.mem_cons, List.not_mem_nil, or_false] at hr
      rcases hr with rfl | rfl
      · exact ⟨by decide, by decide, at_of_take (by decide) (by decide +kernel), by decide, by decide⟩
      · exact ⟨by decide, by decide, at_of_take (by decide) (by decide +kernel), by decide, by decide⟩⟩

def file : Ace.Table ℚ := ⟨["294K".toList],
  [(1, ⟨[("294K".toList, .linlin [1000000, 2000000, 3000000] [20, 21, 22])], none, none⟩),
   (101, ⟨[("294K".toList, .linlin [1000000, 2000000, 3000000] [5, 6, 7])], none, none⟩),
   (2, ⟨[("294K".toList, .linlin [1000000, 2000000, 3000000] [10, 0, 12])], none, none⟩),
   (18, ⟨[("294K".toList, .linlin [1000000, 2000000, 3000000] [8, 9, 10])],
      some ⟨true, ⟨[1000000, 3000000], [3, 4], [2], [2]⟩⟩,
      some ⟨true, [1000000, 3000000], [⟨[0, 2000000], [1 / 2000000, 1 / 2000000], [0, 1]⟩, ⟨[0, 4000000], [1 / 4000000, 1 / 4000000], [0, 1]⟩]⟩⟩),
   (102, ⟨[("294K".toList, .linlin [2000000, 3000000] [5, 1])], none, none⟩)]⟩

theorem load_table : load table = .ok file := by decide +kernel

def editor : Editor ℚ := ⟨file, file, "294K".toList, [1, 101, 2, 18, 102, 452, 1018], [], []⟩

theorem init_file : init file none = .ok editor := by decide +kernel

theorem sound : content.Sound := ⟨by decide, by
  intro r hr
  simp only [content, List.mem_cons, List.not_mem_nil, or_false] at hr
  rcases hr with rfl | rfl <;> decide⟩

/-- Capture with two groups, relative values 2 and 1/2. -/
def input : Input ℚ := ⟨102, [[(1, 2), (2, 1 / 2)]], .ok ([4000000, 2000000], [2000000, 500000])⟩

def data : Data ℚ := ⟨[2000000, 3000000], [5, 1], fun g => if g = 1 then 2 else 1 / 2, [4000000, 2000000], 500000, 4000000⟩

theorem fits : Fits editor 0 input data where
  notChi := by decide
  elementary := by intro c; simp [input, Ace.Part]
  energies := by decide +kernel
  values := by decide +kernel
  length := rfl
  sample := by
    refine ⟨[(1, 2), (2, 1 / 2)], rfl, ?_⟩
    intro g h1 h2
    have : g = 1 ∨ g = 2 := by simp [data] at h2; omega
    rcases this with rfl | rfl <;> decide +kernel
  bounds := ⟨[2000000, 500000], rfl, by constructor <;> simp [data, lowerBounds]; norm_num⟩
  max := by constructor <;> simp [data, upperBounds]; norm_num
  usable := by
    constructor
    · simp [data]
    · simp [data]; norm_num
    · simp [data]; norm_num
    · simp [data]; norm_num
  noMin := by simp [data]
  nuVaries := fun h => absurd h (by decide)

def sampled : Editor ℚ := (sampleMts editor 0 [input]).1

theorem sampled_ok : sampleMts editor 0 [input] = (sampled, .ok ()) := Prod.ext rfl (by decide +kernel)

/-- What is replaced: the total, the absorption and the capture cross section. -/
def jobs : List (Job ℚ × Nat) :=
  [(⟨[20, 21, 22], [20, 37 / 2, 23], 1⟩, 3), (⟨[5, 6, 7], [5, 7 / 2, 8], 1⟩, 6), (⟨[5, 1], [5 / 2, 2], 1⟩, 45)]

def groups : List (List (Job ℚ)) := jobs.map fun js => [js.1]

theorem replaces : List.Forall₂ (fun mt js => Replaces editor sampled mt js ∧ (mt = 452 → ∀ j ∈ js, j.maxReplaces = 9999))
    (sampled.adjusted.insertionSort (· ≤ ·)) groups := by
  have e : sampled.adjusted.insertionSort (· ≤ ·) = [1, 101, 102] := by decide +kernel
  rw [e]
  refine .cons ⟨.inl ⟨by decide, [20, 21, 22], [20, 37 / 2, 23], by decide +kernel, by decide +kernel, 1, rfl, .inl rfl⟩, by decide⟩
    (.cons ⟨.inl ⟨by decide, [5, 6, 7], [5, 7 / 2, 8], by decide +kernel, by decide +kernel, 1, rfl, .inl rfl⟩, by decide⟩
    (.cons ⟨.inl ⟨by decide, [5, 1], [5 / 2, 2], by decide +kernel, by decide +kernel, 1, rfl, .inl rfl⟩, by decide⟩ .nil))

/-- A check for `OccursOnceAt`: the places where the pattern begins. -/
def starts (pat : List Char) : Nat → List Char → List Nat
  | n, [] => if pat = [] then [n] else []
  | n, c :: cs => if pat.isPrefixOf (c :: cs) then n :: starts pat (n + 1) cs else starts pat (n + 1) cs

theorem starts_mem (pat : List Char) : ∀ (text : List Char) (n : Nat) (u v : List Char), text = u ++ pat ++ v → n + u.length ∈ starts pat n text := by
  intro text
  induction text with
  | nil =>
    intro n u v h
    have h' := h.symm
    simp only [List.append_eq_nil_iff] at h'
    obtain ⟨⟨rfl, rfl⟩, rfl⟩ := h'
    simp [starts]
  | cons c cs ih =>
    intro n u v h
    unfold starts
    cases u with
    | nil =>
      rw [if_pos (by rw [List.isPrefixOf_iff_prefix, h]; simp)]
      simp
    | cons d u =>
      simp only [List.cons_append, List.cons.injEq] at h
      have := ih (n + 1) u v h.2
      rw [show n + 1 + u.length = n + (d :: u).length by simp; omega] at this
      split_ifs
      · exact List.mem_cons_of_mem _ this
      · exact this

theorem occurs_of_check {text : List Char} {array : List ℚ} {s : Nat} (p : Nat)
    (h1 : text = text.take p ++ formatMcnp fmtE array ++ text.drop (p + (formatMcnp fmtE array).length)) (h2 : (text.take p).getLast?.all isSpace = true)
    (h3 : (text.drop (p + (formatMcnp fmtE array).length)).head?.all isSpace = true) (h4 : (split (text.take p)).length = s)
    (h5 : starts (formatMcnp fmtE array) 0 text = [p]) : OccursOnceAt fmtE text array s := by
  refine ⟨_, _, h1, ?_, ?_, h4, ?_⟩
  · cases e : (text.take p).getLast? with
    | none => exact Or.inl (List.getLast?_eq_none_iff.mp e)
    | some c => exact Or.inr ⟨c, e, by rw [e] at h2; simpa using h2⟩
  · cases e : (text.drop (p + (formatMcnp fmtE array).length)).head? with
    | none => exact Or.inl (List.head?_eq_none_iff.mp e)
    | some c => exact Or.inr ⟨c, e, by rw [e] at h3; simpa using h3⟩
  · intro u' v' h
    have hm := starts_mem _ _ 0 u' v' h
    rw [h5] at hm
    simp only [Nat.zero_add, List.mem_singleton] at hm
    rw [h, List.append_assoc, ← hm, List.take_left]

def writer : Writer := match WriteAce.read text with
  | .ok w => w
  | .error _ => ⟨[], []⟩

theorem read_ok : WriteAce.read text = .ok writer := by decide +kernel

/-- The conditions of `occurs_of_check`. -/
def check (text pat : List Char) (p s : Nat) : Bool :=
  text == text.take p ++ pat ++ text.drop (p + pat.length) && (text.take p).getLast?.all isSpace && (text.drop (p + pat.length)).head?.all isSpace &&
    (split (text.take p)).length == s && starts pat 0 text == [p]

theorem occurs_check {text : List Char} {array : List ℚ} {s : Nat} (p : Nat) (h : check text (formatMcnp fmtE array) p s = true) :
    OccursOnceAt fmtE text array s := by
  unfold check at h
  simp only [Bool.and_eq_true, beq_iff_eq] at h
  exact occurs_of_check p h.1.1.1.1 h.1.1.1.2 h.1.1.2 h.1.2 h.2

theorem check0 : check writer.singleLine (formatMcnp fmtE [20, 21, 22]) 55 3 = true := by decide +kernel

theorem check1 : check (runGroup fmtE writer [⟨[20, 21, 22], [20, 37 / 2, 23], 1⟩]).1.singleLine (formatMcnp fmtE [5, 6, 7]) 109 6 = true := by
  decide +kernel

theorem check2 : check (runGroup fmtE writer [⟨[20, 21, 22], [20, 37 / 2, 23], 1⟩, ⟨[5, 6, 7], [5, 7 / 2, 8], 1⟩]).1.singleLine (formatMcnp fmtE [5, 1])
    813 45 = true := by decide +kernel

theorem occurs (pre : List (Job ℚ × Nat)) (js : Job ℚ × Nat) (post : List (Job ℚ × Nat)) (h : jobs = pre ++ js :: post) :
    FoundAt fmtE (runGroup fmtE writer (pre.map Prod.fst)).1.singleLine js.1 js.2 := by
  match pre, h with
  | [], h =>
    simp only [jobs, List.cons_append, List.nil_append, List.cons.injEq] at h
    obtain ⟨rfl, rfl⟩ := h
    exact .inl (occurs_check 55 check0)
  | [a], h =>
    simp only [jobs, List.cons_append, List.nil_append, List.cons.injEq] at h
    obtain ⟨rfl, rfl, rfl⟩ := h
    exact .inl (occurs_check 109 check1)
  | [a, b], h =>
    simp only [jobs, List.cons_append, List.nil_append, List.cons.injEq] at h
    obtain ⟨rfl, rfl, rfl, rfl⟩ := h
    exact .inl (occurs_check 813 check2)
  | a :: b :: c :: pre, h =>
    have := congrArg List.length h
    simp [jobs] at this

theorem not_structural (js : Job ℚ × Nat) (h : js ∈ jobs) (i : Nat) (hc : Covers js i) : ¬ Structural table content (i + 1) := by
  have e1 : JXS table 1 = some 1 := by decide +kernel
  have e3 : JXS table 3 = some 31 := by decide +kernel
  have e6 : JXS table 6 = some 37 := by decide +kernel
  have e7 : JXS table 7 = some 39 := by decide +kernel
  have hi : (3 ≤ i ∧ i < 9) ∨ (45 ≤ i ∧ i < 47) := by
    simp only [jobs, List.mem_cons, List.not_mem_nil, or_false] at h
    unfold Covers at hc
    rcases h with rfl | rfl | rfl <;> simp at hc <;> omega
  have n1 : content.energies.length = 3 := rfl
  have n2 : content.reactions.length = 2 := rfl
  rintro (⟨j, hj, h1, h2⟩ | ⟨j, hj, h1, h2⟩ | ⟨j, hj, r, hr, h1⟩)
  · rw [e1] at hj
    simp only [Option.some.injEq] at hj
    omega
  · rw [e3, e6] at hj
    simp only [Option.some.injEq] at hj
    omega
  · rw [e7] at hj
    simp only [Option.some.injEq] at hj
    simp only [content, List.mem_cons, List.not_mem_nil, or_false] at hr
    rcases hr with rfl | rfl <;> simp only at h1 <;> omega

theorem jobs_ok : ∀ js ∈ jobs, js.1.base.length = js.1.new.length ∧ js.1.base ≠ [] ∧ 0 < js.1.maxReplaces := by decide +kernel

theorem jobs_finite : ∀ js ∈ jobs, ∀ x ∈ js.1.new, Finite x := by
  have h : ∀ js ∈ jobs, ∀ x ∈ js.1.new, x = 0 ∨ 1 / 10 ≤ |x| ∧ |x| < 1000 := by decide +kernel
  exact fun js hjs x hx => finite_of (h js hjs x hx)

theorem jobs_disjoint : jobs.Pairwise (fun a b => ∀ i, ¬ (Covers a i ∧ Covers b i)) := by
  simp only [jobs, List.pairwise_cons, List.mem_cons, List.not_mem_nil, or_false, forall_eq_or_imp, forall_eq, Covers, List.length_cons, List.length_nil,
    List.Pairwise.nil, and_true, IsEmpty.forall_iff, implies_true]
  refine ⟨⟨?_, ?_⟩, ?_⟩ <;> intro i <;> omega

theorem last1 : content.Last 1 ⟨102, 2, [5, 1], 6⟩ := by
  refine ⟨rfl, ?_⟩
  intro j r' hj hr'
  match j, hj with
  | j + 2, _ => simp [content] at hr'

-- All hypotheses of C86, C87 and C88 hold.
example : ∃ text', render fmtE parse [input] text 0 = .ok text' ∧ ∀ file' ed', parse text' = .ok file' → init file' none = .ok ed' →
    ∃ out, getSigma ed' 102 none false = .ok (.arr out) ∧ out.length = 2 := by
  obtain ⟨text', h1, h2⟩ := C88_sampled_file aceText holds load_table init_file sound (k := 0) (ins := [input])
    (fun inp hinp => .inl ⟨data, by rw [List.mem_singleton.mp hinp]; exact fits⟩) (by simp) sampled_ok read_ok replaces jobs rfl jobs_ok jobs_finite jobs_disjoint
    not_structural occurs
  refine ⟨text', h1, fun file' ed' h3 h4 => ?_⟩
  obtain ⟨_, out, h5, h6, _⟩ := h2 file' ed' h3 h4 input (List.mem_singleton_self _) data fits 1 _ last1 rfl (by unfold LeftOut; decide) (by decide)
    (⟨[5, 1], [5 / 2, 2], 1⟩, 45) (by simp [jobs]) (by decide +kernel) (by decide +kernel) ⟨39, by decide +kernel, rfl⟩
  exact ⟨out, h5, h6⟩

-- The written file is loaded again, and has the sampled values.
example : ((render fmtE parse [input] text 0).bind fun text' => (parse text').bind fun file' => (init file' none).bind fun ed' =>
    getSigma ed' 102 none false) = .ok (.arr [5 / 2, 2]) := by decide +kernel

end ASAPy.EndToEnd.Example
