import Verif.Library.Model
import Mathlib.Data.List.TakeWhile
import Mathlib.Data.List.Induction

/-!
# Properties of the list of data files (C141)
-/

namespace ASAPy.Library
open ASAPy.Str

/-! ### Specification -/

/-- The name of a file or directory. -/
def Name (c : Text) : Prop := c ≠ [] ∧ c ≠ c!"." ∧ c ≠ c!".." ∧ '/' ∉ c

/-- Two paths, in two working directories, lead to the same file. -/
def SameFile (cwd cwd' : List Text) (p q : Text) : Prop := absPath cwd p = absPath cwd' q

/-- An entry that can be written: a path that is not empty, and materials without blanks in their names. -/
def Lib.Ok (l : Lib) : Prop := l.path ≠ [] ∧ ∀ m ∈ l.materials, Word m

/-! ### Paths -/

theorem step_name {acc : List Text} {c : Text} (h : Name c) : step acc c = acc ++ [c] := by
  unfold step
  rw [if_neg (by rintro (h1 | h1); exacts [h.1 h1, h.2.1 h1]), if_neg h.2.2.1]

theorem step_names {acc : List Text} {cs : List Text} (h : ∀ c ∈ cs, Name c) : cs.foldl step acc = acc ++ cs := by
  induction cs generalizing acc with
  | nil => simp
  | cons c cs ih => rw [List.foldl_cons, step_name (h c (by simp)), ih (fun x hx => h x (by simp [hx]))]; simp

theorem step_up (acc : List Text) (x : Text) : step (acc ++ [x]) c!".." = acc := by
  simp [step]

theorem step_ups (acc s : List Text) : (List.replicate s.length c!"..").foldl step (acc ++ s) = acc := by
  induction s using List.reverseRecOn with
  | nil => simp
  | append_singleton s x ih =>
    rw [List.length_append, List.length_singleton, List.replicate_succ, List.foldl_cons, ← List.append_assoc, step_up, ih]

theorem relParts_leads : ∀ (s p acc : List Text), (∀ c ∈ p, Name c) → (relParts s p).foldl step (acc ++ s) = acc ++ p
  | [], p, acc, hp => by
    cases p <;> simp [relParts, step_names hp]
  | s :: ss, [], acc, _ => by
    have := step_ups acc (s :: ss)
    simpa [relParts] using this
  | s :: ss, p :: ps, acc, hp => by
    rw [relParts]
    by_cases h : s = p
    · subst h
      rw [if_pos rfl]
      have := relParts_leads ss ps (acc ++ [s]) (fun c hc => hp c (by simp [hc]))
      simpa using this
    · rw [if_neg h, List.foldl_append, step_ups, step_names hp]

theorem relParts_nil : ∀ {s p : List Text}, relParts s p = [] → s = p
  | [], [], _ => rfl
  | [], p :: ps, h => by simp [relParts] at h
  | s :: ss, [], h => by simp [relParts] at h
  | s :: ss, p :: ps, h => by
    rw [relParts] at h
    by_cases e : s = p
    · rw [if_pos e] at h; rw [e, relParts_nil h]
    · rw [if_neg e] at h; simp at h

theorem relParts_slash : ∀ {s p : List Text}, (∀ c ∈ p, Name c) → ∀ c ∈ relParts s p, '/' ∉ c ∧ c ≠ [] ∧ c ≠ c!"."
  | [], p, hp => by
    intro c hc
    have : c ∈ p := by cases p with
      | nil => simp [relParts] at hc
      | cons => simpa [relParts] using hc
    exact ⟨(hp c this).2.2.2, (hp c this).1, (hp c this).2.1⟩
  | s :: ss, [], _ => by
    intro c hc
    simp only [relParts, List.append_nil] at hc
    rw [List.eq_of_mem_replicate hc]
    decide
  | s :: ss, p :: ps, hp => by
    intro c hc
    rw [relParts] at hc
    by_cases e : s = p
    · rw [if_pos e] at hc; exact relParts_slash (fun x hx => hp x (by simp [hx])) c hc
    · rw [if_neg e, List.mem_append] at hc
      rcases hc with hc | hc
      · rw [List.eq_of_mem_replicate hc]; decide
      · exact ⟨(hp c hc).2.2.2, (hp c hc).1, (hp c hc).2.1⟩

theorem step_keeps {acc : List Text} {c : Text} (ha : ∀ x ∈ acc, Name x) (hc : '/' ∉ c) : ∀ x ∈ step acc c, Name x := by
  unfold step
  split
  · exact ha
  · rename_i h
    push Not at h
    split
    · intro x hx; exact ha x (List.dropLast_subset _ hx)
    · rename_i h2
      intro x hx
      rcases List.mem_append.mp hx with hx | hx
      · exact ha x hx
      · rw [List.mem_singleton] at hx; subst hx; exact ⟨h.1, h.2, h2, hc⟩

theorem foldl_keeps {cs acc : List Text} (ha : ∀ x ∈ acc, Name x) (hc : ∀ c ∈ cs, '/' ∉ c) : ∀ x ∈ cs.foldl step acc, Name x := by
  induction cs generalizing acc with
  | nil => exact ha
  | cons c cs ih => exact ih (step_keeps ha (hc c (by simp))) (fun x hx => hc x (by simp [hx]))

theorem splitOn_no_slash (p : Text) : ∀ c ∈ p.splitOn '/', '/' ∉ c := by
  intro c hc hm
  have key : ∀ (q : Text), ∀ c ∈ q.splitOn '/', '/' ∉ c := by
    intro q
    induction q with
    | nil => simp
    | cons a q ih =>
      intro c hc
      rw [List.splitOn, List.splitOnP_cons_eq_if_modifyHead] at hc
      split at hc
      · rcases List.mem_cons.mp hc with rfl | hc
        · simp
        · exact ih c hc
      · rename_i ha
        cases e : q.splitOnP (· == '/') with
        | nil => exact absurd e (List.splitOnP_ne_nil _ _)
        | cons x xs =>
          rw [e, List.modifyHead_cons] at hc
          rcases List.mem_cons.mp hc with rfl | hc
          · have := ih x (by rw [List.splitOn, e]; simp)
            simp only [List.mem_cons, not_or]
            refine ⟨?_, this⟩
            intro h; exact ha (by simp [← h])
          · exact ih c (by rw [List.splitOn, e]; simp [hc])
  exact key p c hc hm

theorem absPath_names {cwd : List Text} (hcwd : ∀ c ∈ cwd, Name c) (p : Text) : ∀ c ∈ absPath cwd p, Name c := by
  unfold absPath
  refine foldl_keeps ?_ (splitOn_no_slash p)
  split
  · simp
  · exact hcwd

theorem splitOn_slash (a b : Text) : (a ++ '/' :: b).splitOn '/' = a.splitOn '/' ++ b.splitOn '/' := by
  induction a with
  | nil => simp [List.splitOn, List.splitOnP_cons_eq_if_modifyHead]
  | cons c a ih =>
    simp only [List.splitOn, List.cons_append, List.splitOnP_cons_eq_if_modifyHead] at ih ⊢
    split
    · rw [ih]; rfl
    · rw [ih]
      cases e : a.splitOnP (· == '/') with
      | nil => exact absurd e (List.splitOnP_ne_nil _ _)
      | cons x xs => rfl

/-- A relative path behind a directory. -/
theorem absPath_join (cwd : List Text) (d r : Text) (hr : r.head? ≠ some '/') : absPath cwd (joinPath d r) = (r.splitOn '/').foldl step (absPath cwd d) := by
  unfold joinPath
  rw [if_neg hr]
  by_cases h0 : d = []
  · subst h0
    simp only [true_or, if_true, List.nil_append]
    unfold absPath
    rw [if_neg hr]
    simp [step]
  · by_cases h1 : d.getLast? = some '/'
    · rw [if_pos (Or.inr h1)]
      obtain ⟨e, rfl⟩ : ∃ e, d = e ++ ['/'] := by
        rcases List.eq_nil_or_concat d with h | ⟨e, x, h⟩
        · exact absurd h h0
        · subst h; simp at h1; exact ⟨e, by simp [h1]⟩
      have e1 : (e ++ ['/'] ++ r).splitOn '/' = e.splitOn '/' ++ r.splitOn '/' := by
        rw [List.append_assoc, List.singleton_append, splitOn_slash]
      have e2 : (e ++ ['/']).splitOn '/' = e.splitOn '/' ++ [[]] := by
        rw [splitOn_slash]; rfl
      have e3 : (e ++ ['/'] ++ r).head? = (e ++ ['/']).head? := by cases e <;> rfl
      unfold absPath
      rw [e1, e2, e3, List.foldl_append, List.foldl_append]
      simp [step]
    · rw [if_neg (by rintro (h | h); exacts [h0 h, h1 h])]
      have e3 : (d ++ '/' :: r).head? = d.head? := by
        cases d with
        | nil => exact absurd rfl h0
        | cons => rfl
      unfold absPath
      rw [splitOn_slash, e3, List.foldl_append]

theorem relText_head {rel : List Text} (h : ∀ c ∈ rel, '/' ∉ c ∧ c ≠ [] ∧ c ≠ c!".") :
    (if rel = [] then c!"." else ['/'].intercalate rel).head? ≠ some '/' := by
  cases rel with
  | nil => simp
  | cons c cs =>
    rw [if_neg (by simp)]
    obtain ⟨h1, h2, _⟩ := h c (by simp)
    cases c with
    | nil => exact absurd rfl h2
    | cons a b =>
      have : (['/'].intercalate ((a :: b) :: cs)).head? = some a := by
        cases cs <;> simp [List.intercalate]
      rw [this]
      intro e
      injection e with e
      exact h1 (by simp [e])

theorem relText_fold {rel : List Text} (h : ∀ c ∈ rel, '/' ∉ c ∧ c ≠ [] ∧ c ≠ c!".") (acc : List Text) :
    ((if rel = [] then c!"." else ['/'].intercalate rel).splitOn '/').foldl step acc = rel.foldl step acc := by
  by_cases e : rel = []
  · rw [if_pos e, e]
    rfl
  · rw [if_neg e, List.splitOn_intercalate _ (fun c hc => (h c hc).1) e]

/-- The relative path from a directory leads to the file, from any directory that is the same. -/
theorem relpath_leads {cwd cwd' : List Text} (hcwd : ∀ c ∈ cwd, Name c) {p start r d : Text} (h : relpath cwd p start = .ok r)
    (hd : absPath cwd' d = absPath cwd start) : absPath cwd' (joinPath d r) = absPath cwd p := by
  unfold relpath at h
  split at h
  · simp at h
  · injection h with h
    have hs := relParts_slash (s := absPath cwd start) (absPath_names hcwd p)
    subst h
    rw [absPath_join _ _ _ (relText_head hs), relText_fold hs, hd]
    have := relParts_leads (absPath cwd start) (absPath cwd p) [] (absPath_names hcwd p)
    simpa using this

theorem relpath_dot {cwd : List Text} (hcwd : ∀ c ∈ cwd, Name c) {p start : Text} (h : relpath cwd p start = .ok c!".") : absPath cwd start = absPath cwd p := by
  unfold relpath at h
  split at h
  · simp at h
  · injection h with h
    have hs := relParts_slash (s := absPath cwd start) (absPath_names hcwd p)
    by_cases e : relParts (absPath cwd start) (absPath cwd p) = []
    · exact relParts_nil e
    · exfalso
      rw [if_neg e] at h
      have := List.splitOn_intercalate '/' (fun c hc => (hs c hc).1) e
      rw [h] at this
      have h2 : (c!".").splitOn '/' = [c!"."] := by decide
      rw [h2] at this
      exact (hs c!"." (by rw [← this]; simp)).2.2 rfl

theorem absPath_realpath {cwd : List Text} (hcwd : ∀ c ∈ cwd, Name c) (cwd' : List Text) (p : Text) : absPath cwd' (realpath cwd p) = absPath cwd p := by
  have hn := absPath_names hcwd p
  unfold realpath
  rw [absPath, List.head?_cons, if_pos rfl]
  have h1 := splitOn_slash [] (['/'].intercalate (absPath cwd p))
  rw [List.nil_append] at h1
  rw [h1, List.foldl_append]
  by_cases e : absPath cwd p = []
  · rw [e]; rfl
  · rw [List.splitOn_intercalate _ (fun c hc => (hn c hc).2.2.2) e]
    have : ([] : Text).splitOn '/' = [[]] := rfl
    rw [this]
    simp [step, step_names hn]

theorem commonDir_ne (libs : List Lib) : commonDir libs ≠ [] := by
  unfold commonDir
  split
  · simp
  · assumption

theorem elems_ok {cwd : List Text} {dir : Text} : ∀ {libs : List Lib}, (∀ l ∈ libs, l.Ok) → ∃ es, elems cwd dir libs = .ok es ∧
    List.Forall₂ (fun (l : Lib) (e : Elem) => relpath cwd l.path dir = .ok e.path ∧ e.type = l.type ∧ e.materials = join l.materials) libs es
  | [], _ => ⟨[], rfl, .nil⟩
  | l :: ls, h => by
    obtain ⟨es, h1, h2⟩ := elems_ok (dir := dir) (fun x hx => h x (List.mem_cons_of_mem _ hx))
    have hp : ∃ r, relpath cwd l.path dir = .ok r := by
      unfold relpath
      rw [if_neg (h l (by simp)).1]
      exact ⟨_, rfl⟩
    obtain ⟨r, hr⟩ := hp
    refine ⟨⟨join l.materials, r, l.type⟩ :: es, ?_, .cons ⟨hr, rfl, rfl⟩ h2⟩
    rw [elems]
    simp only [bind, Except.bind, pure, Except.pure, hr, h1]

/-- The path ends in the name of a file. -/
def EndsInName (p : Text) : Prop := ∃ n, Name n ∧ (p = n ∨ ∃ d, p = d ++ '/' :: n)

theorem splitOn_name {n : Text} (h : '/' ∉ n) : n.splitOn '/' = [n] := by
  induction n with
  | nil => rfl
  | cons c n ih =>
    rw [List.mem_cons, not_or] at h
    rw [List.splitOn, List.splitOnP_cons_eq_if_modifyHead, if_neg (by simpa using fun e : c = '/' => h.1 e.symm)]
    rw [show List.splitOnP (· == '/') n = n.splitOn '/' from rfl, ih h.2]
    rfl

theorem absPath_slash (cwd : List Text) {a : Text} (ha : a ≠ []) (b : Text) : absPath cwd (a ++ '/' :: b) = (b.splitOn '/').foldl step (absPath cwd a) := by
  unfold absPath
  rw [splitOn_slash, List.foldl_append]
  cases a with
  | nil => exact absurd rfl ha
  | cons c a => rfl

theorem absPath_root (cwd : List Text) (b : Text) : absPath cwd ('/' :: b) = (b.splitOn '/').foldl step [] := by
  unfold absPath
  rw [show '/' :: b = [] ++ '/' :: b from rfl, splitOn_slash, List.foldl_append]
  rfl

theorem absPath_slashes (cwd : List Text) {a : Text} (ha : a ≠ []) : ∀ k, absPath cwd (a ++ List.replicate k '/') = absPath cwd a
  | 0 => by simp
  | k + 1 => by
    rw [List.replicate_succ', ← List.append_assoc, show (a ++ List.replicate k '/') ++ ['/'] = (a ++ List.replicate k '/') ++ '/' :: [] from rfl,
      absPath_slash cwd (by simp [ha]), absPath_slashes cwd ha k]
    rfl

theorem absPath_roots (cwd : List Text) (k : Nat) : absPath cwd (List.replicate (k + 1) '/') = [] := by
  rw [show List.replicate (k + 1) '/' = ['/'] ++ List.replicate k '/' by rw [Nat.add_comm, List.replicate_add]; rfl, absPath_slashes cwd (by simp), absPath_root]
  rfl

/-- A text is one that does not end in a slash, and slashes. -/
theorem slashes_split (d : Text) : ∃ e k, d = e ++ List.replicate k '/' ∧ (e = [] ∨ ∃ e' c, e = e' ++ [c] ∧ c ≠ '/') := by
  induction d using List.reverseRecOn with
  | nil => exact ⟨[], 0, rfl, Or.inl rfl⟩
  | append_singleton d c ih =>
    by_cases hc : c = '/'
    · obtain ⟨e, k, rfl, he⟩ := ih
      exact ⟨e, k + 1, by rw [hc, List.append_assoc, ← List.replicate_succ'], he⟩
    · exact ⟨d ++ [c], 0, by simp, Or.inr ⟨d, c, rfl, hc⟩⟩

theorem dirname_name {n : Text} (h : '/' ∉ n) : dirname n = [] := by
  have : n.reverse.dropWhile (· ≠ '/') = [] := by
    rw [List.dropWhile_eq_nil_iff]
    intro x hx
    simp only [ne_eq, decide_eq_true_eq]
    rintro rfl
    exact h (List.mem_reverse.mp hx)
  unfold dirname
  rw [this]
  rfl

theorem dirname_slash (d : Text) {n : Text} (h : '/' ∉ n) : dirname (d ++ '/' :: n) =
    if (d ++ ['/']).all (· = '/') then d ++ ['/'] else ((d ++ ['/']).reverse.dropWhile (· = '/')).reverse := by
  have : ((d ++ '/' :: n).reverse.dropWhile (· ≠ '/')).reverse = d ++ ['/'] := by
    rw [List.reverse_append, List.reverse_cons, List.append_assoc, List.dropWhile_append_of_pos]
    · simp
    · intro x hx
      simp only [ne_eq, decide_eq_true_eq]
      rintro rfl
      exact h (List.mem_reverse.mp hx)
  unfold dirname
  rw [this]

/-- The directory of a file is where it is. -/
theorem absPath_dirname (cwd : List Text) {p n : Text} (hn : Name n) (hp : p = n ∨ ∃ d, p = d ++ '/' :: n) : absPath cwd p = absPath cwd (dirname p) ++ [n] := by
  have hsl := hn.2.2.2
  rcases hp with rfl | ⟨d, rfl⟩
  · rw [dirname_name hsl]
    unfold absPath
    rw [splitOn_name hsl, if_neg]
    · rw [List.foldl_cons, step_name hn]
      simp [List.splitOn, step]
    · intro hh
      cases p with
      | nil => cases hh
      | cons c p =>
        simp only [List.head?_cons, Option.some.injEq] at hh
        exact hsl (by simp [hh])
  · rw [dirname_slash d hsl]
    obtain ⟨e, k, rfl, he⟩ := slashes_split d
    rcases he with rfl | ⟨e', c, rfl, hc⟩
    · rw [List.nil_append, if_pos (by simp)]
      rw [show List.replicate k '/' ++ ['/'] = List.replicate (k + 1) '/' from List.replicate_succ'.symm, absPath_roots]
      cases k with
      | zero =>
        rw [List.replicate_zero, List.nil_append, absPath_root, splitOn_name hsl, List.foldl_cons, step_name hn]
        rfl
      | succ k =>
        rw [absPath_slash cwd (by simp), absPath_roots, splitOn_name hsl, List.foldl_cons, step_name hn]
        rfl
    · rw [if_neg (by simp [hc])]
      have : ((e' ++ [c] ++ List.replicate k '/' ++ ['/']).reverse.dropWhile (· = '/')).reverse = e' ++ [c] := by
        rw [show e' ++ [c] ++ List.replicate k '/' ++ ['/'] = e' ++ [c] ++ List.replicate (k + 1) '/' by rw [List.replicate_succ']; simp,
          List.reverse_append, List.reverse_replicate, List.dropWhile_append_of_pos]
        · simp [hc]
        · intro x hx
          simp [List.eq_of_mem_replicate hx]
      rw [this, absPath_slash cwd (by simp), absPath_slashes cwd (by simp), splitOn_name hsl, List.foldl_cons, step_name hn]
      rfl

/-- C141: a library that is written to an XML file and read back has the same entries in the same order, with the same types and materials, and paths to the
same files, whatever the working directories and however the XML file is named, as long as it is the same file. -/
theorem C141_round_trip_partial (cwd cwd' : List Text) (hcwd : ∀ c ∈ cwd, Name c) (libs : List Lib) (h : ∀ l ∈ libs, l.Ok) (path path' : Text)
    (hn : EndsInName path) (hn' : EndsInName path') (hp : SameFile cwd cwd' path path') :
    ∃ x, exportXml cwd libs path = .ok x ∧
      List.Forall₂ (fun l r => SameFile cwd cwd' l.path r.path ∧ r.type = l.type ∧ r.materials = l.materials) libs (fromXml x path') := by
  have hp : SameFile cwd cwd' (dirname path) (dirname path') := by
    obtain ⟨n, q1, q2⟩ := hn
    obtain ⟨n', q1', q2'⟩ := hn'
    unfold SameFile at hp ⊢
    rw [absPath_dirname cwd q1 q2, absPath_dirname cwd' q1' q2'] at hp
    exact (List.append_inj' hp rfl).1
  obtain ⟨es, h1, h2⟩ := elems_ok (cwd := cwd) (dir := commonDir libs) h
  obtain ⟨r, hr⟩ : ∃ r, relpath cwd (commonDir libs) (dirname path) = .ok r := by
    unfold relpath
    rw [if_neg (commonDir_ne libs)]
    exact ⟨_, rfl⟩
  refine ⟨⟨if r = c!"." then none else some (realpath cwd (commonDir libs)), es⟩, ?_, ?_⟩
  · unfold exportXml
    simp only [bind, Except.bind, pure, Except.pure, hr, h1]
  · have hd : absPath cwd' ((if r = c!"." then none else some (realpath cwd (commonDir libs))).getD (dirname path')) = absPath cwd (commonDir libs) := by
      by_cases e : r = c!"."
      · rw [if_pos e]
        subst e
        rw [Option.getD_none, ← hp]
        exact relpath_dot hcwd hr
      · rw [if_neg e, Option.getD_some]
        exact absPath_realpath hcwd cwd' _
    unfold fromXml
    simp only
    generalize (if r = c!"." then none else some (realpath cwd (commonDir libs))) = dd at hd ⊢
    generalize commonDir libs = cd at hd h2
    clear hr h1
    induction h2 with
    | nil => exact .nil
    | @cons l e ls es he _ ih =>
      refine .cons ⟨?_, he.2.1, ?_⟩ (ih (fun x hx => h x (List.mem_cons_of_mem _ hx)))
      · exact (relpath_leads hcwd he.1 hd).symm
      · show split e.materials = l.materials
        rw [he.2.2, split_join (h l (by simp)).2]

/-- C141: the entry found for a material is the first one registered that has it, before and after. -/
theorem C141_material (libs libs' : List Lib) (name : Text) (h : List.Forall₂ (fun (l r : Lib) => r.materials = l.materials) libs libs') :
    (∀ l, getByMaterial libs name = some l → ∃ i : ℕ, libs[i]? = some l ∧ name ∈ l.materials ∧ (∀ (j : ℕ) (k : Lib), j < i → libs[j]? = some k → name ∉ k.materials) ∧
      getByMaterial libs' name = libs'[i]?) ∧
    (getByMaterial libs name = none ↔ ∀ l ∈ libs, name ∉ l.materials) := by
  refine ⟨?_, by simp [getByMaterial]⟩
  induction h with
  | nil => intro l hl; simp [getByMaterial] at hl
  | @cons a b libs libs' hab _ ih =>
    intro l hl
    unfold getByMaterial at hl ih ⊢
    rw [List.find?_cons] at hl
    by_cases e : name ∈ a.materials
    · simp only [e, decide_true, Option.some.injEq] at hl
      subst hl
      exact ⟨0, rfl, e, by simp, by rw [List.find?_cons, hab]; simp [e]⟩
    · simp only [e, decide_false] at hl
      obtain ⟨i, h1, h2, h3, h4⟩ := ih l hl
      refine ⟨i + 1, h1, h2, ?_, ?_⟩
      · intro j k hj hk
        cases j with
        | zero => simp at hk; subst hk; exact e
        | succ j => exact h3 j k (by omega) hk
      · rw [List.find?_cons, hab]
        simpa [e] using h4

/-- C141: after any history of registrations, of files of types `data_...`, a material is found in the first file registered that has a group of its name,
with the type of that file, and nowhere if no file has one. -/
theorem C141_registered (files : List (Text × Text × List Text)) (name : Text) :
    (∀ i f t gs, files[i]? = some (f, t, gs) → name ∈ gs → (∀ (j : ℕ) g u hs, j < i → files[j]? = some (g, u, hs) → name ∉ hs) →
      getByMaterial (files.foldl (fun l x => registerFile l x.1 (c!"data_" ++ x.2.1) x.2.2) []) name = some ⟨f, t, gs⟩) ∧
    ((∀ x ∈ files, name ∉ x.2.2) → getByMaterial (files.foldl (fun l x => registerFile l x.1 (c!"data_" ++ x.2.1) x.2.2) []) name = none) := by
  have key : ∀ (fs : List (Text × Text × List Text)) (l : List Lib), fs.foldl (fun l x => registerFile l x.1 (c!"data_" ++ x.2.1) x.2.2) l =
      l ++ fs.map fun x => ⟨x.1, x.2.1, x.2.2⟩ := by
    intro fs
    induction fs with
    | nil => simp
    | cons x fs ih => intro l; rw [List.foldl_cons, ih]; simp [registerFile]
  rw [key, List.nil_append]
  refine ⟨?_, by intro h; simpa [getByMaterial] using h⟩
  induction files with
  | nil => intro i f t gs h; simp at h
  | cons x fs ih =>
    intro i f t gs h hn hj
    unfold getByMaterial at ih ⊢
    rw [List.map_cons, List.find?_cons]
    cases i with
    | zero =>
      simp only [List.getElem?_cons_zero, Option.some.injEq] at h
      subst h
      simp [hn]
    | succ i =>
      have h0 : name ∉ x.2.2 := hj 0 x.1 x.2.1 x.2.2 (by omega) rfl
      simp only [h0, decide_false]
      exact ih i f t gs h hn (fun j g u hs hlt hg => hj (j + 1) g u hs (by omega) hg)

/-- C141 (refuted for materials with blanks in their names): they fall apart. -/
theorem C141_blank_refuted (a b : Text) (ha : Word a) (hb : Word b) (cwd : List Text) (l : Lib) (hp : l.path ≠ []) (hm : l.materials = [a ++ ' ' :: b]) (path : Text) :
    ∃ x, exportXml cwd [l] path = .ok x ∧ (fromXml x path).map (·.materials) = [[a, b]] := by
  obtain ⟨r, hr⟩ : ∃ r, relpath cwd (commonDir [l]) (dirname path) = .ok r := by
    unfold relpath
    rw [if_neg (commonDir_ne _)]
    exact ⟨_, rfl⟩
  obtain ⟨r', hr'⟩ : ∃ r, relpath cwd l.path (commonDir [l]) = .ok r := by
    unfold relpath
    rw [if_neg hp]
    exact ⟨_, rfl⟩
  refine ⟨_, by unfold exportXml elems elems; simp only [bind, Except.bind, pure, Except.pure, hr, hr']; rfl, ?_⟩
  simp only [fromXml, List.map_cons, List.map_nil, hm, join_singleton]
  rw [split_space a isSpace_blank, split_word ha, split_word hb]
  rfl

/-- Two files in different directories, with an XML file in a third one: written in `/home/u` and read in `/tmp`. -/
def exLibs : List Lib := [⟨c!"lib/n/U235.h5", c!"neutron", [c!"U235"]⟩, ⟨c!"lib/t/../c_H_in_H2O.h5", c!"thermal", [c!"c_H_in_H2O", c!"H1"]⟩]

example : (∀ l ∈ exLibs, l.Ok) ∧ (∀ c ∈ [c!"home", c!"u"], Name c) ∧ EndsInName c!"xml/cross_sections.xml" ∧ EndsInName c!"/home/u/xml/cross_sections.xml" ∧
    SameFile [c!"home", c!"u"] [c!"tmp"] c!"xml/cross_sections.xml" c!"/home/u/xml/cross_sections.xml" ∧
    (exportXml [c!"home", c!"u"] exLibs c!"xml/cross_sections.xml" = .ok ⟨some c!"/home/u/lib", [⟨c!"U235", c!"n/U235.h5", c!"neutron"⟩, ⟨c!"c_H_in_H2O H1", c!"c_H_in_H2O.h5", c!"thermal"⟩]⟩) := by
  refine ⟨?_, ?_, ⟨c!"cross_sections.xml", ?_, Or.inr ⟨c!"xml", by decide⟩⟩, ⟨c!"cross_sections.xml", ?_, Or.inr ⟨c!"/home/u/xml", by decide⟩⟩,
    by unfold SameFile; decide +kernel, by decide +kernel⟩
  · simp only [exLibs, List.forall_mem_cons, List.not_mem_nil, false_imp_iff, implies_true, and_true, Lib.Ok, Word]
    refine ⟨⟨by simp, by simp, by decide⟩, ⟨by simp, ⟨by simp, by decide⟩, ⟨by simp, by decide⟩⟩⟩
  · simp only [List.forall_mem_cons, List.not_mem_nil, false_imp_iff, implies_true, and_true, Name]
    decide
  all_goals unfold Name; decide

end ASAPy.Library
