import Verif.Boxer2Mat.Props

/-! # C64, end to end: what boxer2mat writes and ASAPy reads -/

namespace ASAPy.Boxr
open ASAPy.Boxer ASAPy.Str ASAPy.Dec

variable {α : Type}

/-! ### Finding -/

theorem find_ok {r : Req} {p : Page α} {rest : List (Page α)} (hp : Legal p) (hw : Asked r p.head) : ∀ others : List (Page α),
    (∀ q ∈ others, Legal q ∧ ¬ Asked r q.head) → find r (others ++ p :: rest) = .ok (p, rest)
  | [], _ => by
    obtain ⟨h1, h2, h3, h4⟩ := hp
    rw [List.nil_append, find, if_neg h1, if_neg (by omega), if_neg (by omega), if_pos (formats_iff.mpr h4), if_pos (wanted_iff.mpr hw)]
  | q :: others, h => by
    obtain ⟨⟨h1, h2, h3, h4⟩, h5⟩ := h q (by simp)
    rw [List.cons_append, find, if_neg h1, if_neg (by omega), if_neg (by omega), if_pos (formats_iff.mpr h4), if_neg (mt wanted_iff.mp h5)]
    exact find_ok hp hw others fun q' hq' => h q' (by simp [hq'])

theorem find_split {r : Req} {p : Page α} {rest : List (Page α)} : ∀ ps : List (Page α), find r ps = .ok (p, rest) →
    Asked r p.head ∧ ∃ others, ps = others ++ p :: rest
  | [], h => by simp [find] at h
  | q :: ps, h => by
    rw [find] at h
    split_ifs at h with h1 h2 h3 h4 h5
    · simp only [Except.ok.injEq, Prod.mk.injEq] at h
      obtain ⟨rfl, rfl⟩ := h
      exact ⟨wanted_iff.mp h5, [], rfl⟩
    · obtain ⟨g1, others, g2⟩ := find_split ps h
      exact ⟨g1, q :: others, by rw [g2]; rfl⟩

theorem loadPages_rest [Zero α] : ∀ (rest : List (Page α)) (p : Page α) (k : Nat) (s s' : St α) (last : Page α) (r : List (Page α)),
    loadPages p rest k s = .ok (s', last, r) → ∃ used, rest = used ++ r := by
  intro rest
  induction rest with
  | nil =>
    intro p k s s' last r h
    rw [loadPages] at h
    by_cases c1 : p.head.nrow > 800 ∨ p.head.columns > 800
    · rw [if_pos c1] at h; cases h
    rw [if_neg c1] at h
    cases hc : controls p.head.nrow p.head.columns p.head.sym k p.icon p.xval s with
    | error e => rw [hc] at h; cases h
    | ok s1 =>
      rw [hc] at h
      simp only at h
      split_ifs at h
      simp only [Except.ok.injEq, Prod.mk.injEq] at h
      exact ⟨[], by rw [← h.2.2]; rfl⟩
  | cons q rest ih =>
    intro p k s s' last r h
    rw [loadPages] at h
    by_cases c1 : p.head.nrow > 800 ∨ p.head.columns > 800
    · rw [if_pos c1] at h; cases h
    rw [if_neg c1] at h
    cases hc : controls p.head.nrow p.head.columns p.head.sym k p.icon p.xval s with
    | error e => rw [hc] at h; cases h
    | ok s1 =>
      rw [hc] at h
      simp only at h
      split_ifs at h
      · simp only [Except.ok.injEq, Prod.mk.injEq] at h
        exact ⟨[], by rw [← h.2.2]; rfl⟩
      · obtain ⟨u, hu⟩ := ih _ _ _ _ _ _ h
        exact ⟨q :: u, by rw [hu]; rfl⟩

/-! ### The text -/

theorem recs_flatten {β : Type} (l : List β) : (recs l).flatten = l := by
  induction h : l.length using Nat.strong_induction_on generalizing l with
  | _ n ih =>
    rw [recs]
    split_ifs with hl
    · simp
    · rw [List.flatten_cons, ih (l.drop 8).length (by rw [List.length_drop]; omega) _ rfl, List.take_append_drop]

/-- The fields of the lines of a block. -/
def fields (prt : α → Fld) (r : Req) (c : Nat → Nat → α) (nrow ncol : Nat) : List (List Fld) :=
  (rows r c nrow ncol).flatMap fun row => (recs row).map fun l => l.map prt

theorem fields_flatten (prt : α → Fld) (r : Req) (c : Nat → Nat → α) (nrow ncol : Nat) :
    (fields prt r c nrow ncol).flatten = (rows r c nrow ncol).flatten.map prt := by
  unfold fields
  induction rows r c nrow ncol with
  | nil => rfl
  | cons row rs ih =>
    rw [List.flatMap_cons, List.flatten_append, ih, List.flatten_cons, List.map_append]
    congr 1
    rw [← List.map_flatten, recs_flatten]

theorem block_eq (prt : α → Fld) (r : Req) (first last : Page α) (c : Nat → Nat → α) :
    block prt r first last c = (List.replicate 4 []).map lineOf ++ headLine first.head.title last ::
      (fields prt r c last.head.nrow last.head.columns).map lineOf := by
  unfold block fields
  rw [List.map_flatMap]
  congr 2
  apply List.flatMap_congr
  intro row _
  rw [List.map_map]
  rfl

theorem flatten_uniform {β : Type} (w : Nat) (f : Nat → Nat → β) : ∀ (n k l : Nat), k < n → l < w →
    (((List.range n).map fun k => (List.range w).map fun l => f k l).flatten)[k * w + l]? = some (f k l) := by
  intro n
  induction n with
  | zero => intro k l hk; omega
  | succ n ih =>
    intro k l hk hl
    rw [List.range_succ, List.map_append, List.flatten_append]
    have hlen : ((List.range n).map fun k => (List.range w).map fun l => f k l).flatten.length = n * w := by
      simp [List.length_flatten, Function.comp_def]
    by_cases hkn : k < n
    · rw [List.getElem?_append_left]
      · exact ih k l hkn hl
      · rw [hlen]
        have : (k + 1) * w ≤ n * w := Nat.mul_le_mul_right w hkn
        rw [Nat.succ_mul] at this
        omega
    · have : k = n := by omega
      subst this
      rw [List.getElem?_append_right (by rw [hlen]; omega), hlen]
      simp [show k * w + l - k * w = l by omega, hl]

theorem rows_get (r : Req) (hr : r.itype ≠ 4) (c : Nat → Nat → α) (nrow ncol k l : Nat) (hk : k < nrow) (hl : l < ncol) :
    (rows r c nrow ncol).flatten[k * ncol + l]? = some (c (nrow - k) (ncol - l)) := by
  unfold rows
  by_cases h1 : ncol = 1
  · rw [if_pos h1]
    subst h1
    have : l = 0 := by omega
    subst this
    simp [hk]
  · rw [if_neg h1]
    have := flatten_uniform ncol (fun k l => if r.itype = 4 ∧ r.mt1 = 0 then c (k + 1) (l + 1) else c (nrow - k) (ncol - l)) nrow k l hk hl
    rw [this, if_neg (fun h => hr h.1)]

theorem rows_length (r : Req) (c : Nat → Nat → α) (nrow ncol : Nat) : (rows r c nrow ncol).flatten.length = nrow * ncol := by
  unfold rows
  by_cases h1 : ncol = 1
  · rw [if_pos h1]; subst h1; simp
  · rw [if_neg h1]; simp [List.length_flatten, Function.comp_def]

/-- A vector is written in one list, from its end. -/
theorem rows_vector (r : Req) (c : Nat → Nat → α) (n : Nat) : (rows r c n 1).flatten = (List.range n).map fun k => c (n - k) 1 := by
  simp [rows]

theorem fInt_no_letter (w n : Nat) : 'E' ∉ fInt w n := by
  unfold fInt
  split_ifs
  · intro h
    rw [List.mem_append] at h
    rcases h with h | h
    · exact absurd (List.eq_of_mem_replicate h) (by decide)
    · exact absurd (natStr_digits n _ h) (by decide)
  · intro h
    exact absurd (List.eq_of_mem_replicate h) (by decide)

theorem headLine_ok (t : List Char) (p : Page α) (hi : p.head.itype ≤ 3) (ht : '*' ∉ t) :
    isStart (headLine (' ' :: t) p) = true ∧ ¬ marker <:+: headLine (' ' :: t) p := by
  obtain ⟨d, hd, hs, hi', hstar⟩ : ∃ d, fInt 1 p.head.itype = [d] ∧ isSpace d = false ∧ isInt [d] = true ∧ d ≠ '*' := by
    have : p.head.itype = 0 ∨ p.head.itype = 1 ∨ p.head.itype = 2 ∨ p.head.itype = 3 := by omega
    rcases this with h | h | h | h <;> rw [h]
    · exact ⟨'0', by decide +kernel, by decide, by decide, by decide⟩
    · exact ⟨'1', by decide +kernel, by decide, by decide, by decide⟩
    · exact ⟨'2', by decide +kernel, by decide, by decide, by decide⟩
    · exact ⟨'3', by decide +kernel, by decide, by decide, by decide⟩
  obtain ⟨u, hu, hE⟩ : ∃ u, headLine (' ' :: t) p = (d :: ' ' :: t) ++ u ∧ 'E' ∉ u := by
    refine ⟨fInt 5 p.head.mat ++ fInt 4 p.head.mt ++ fInt 5 p.head.mat1 ++ fInt 4 p.head.mt1 ++ fInt 4 p.xval.length ++
      fInt 3 p.head.nvf ++ fInt 4 p.icon.length ++ fInt 3 p.head.ncf ++ fInt 4 p.head.nrowm ++ fInt 4 p.head.nrow ++ fInt 4 p.head.ncol ++ ['\n'], ?_, ?_⟩
    · unfold headLine
      rw [hd]
      simp
    · simp [fInt_no_letter]
  have mE : 'E' ∈ marker := by decide
  obtain ⟨m', hm'⟩ : ∃ m', marker = '*' :: m' := ⟨"**ERROR IN BOXR***".toList, by decide⟩
  rw [hu]
  constructor
  · unfold isStart split
    rw [List.cons_append, List.cons_append, splitGo, hs]
    simp only [Bool.false_eq_true, if_false, List.nil_append]
    rw [splitGo, if_pos (by decide), flush_word (by simp)]
    exact hi'
  · rintro ⟨a, b, hab⟩
    rw [List.append_assoc] at hab
    rcases List.append_eq_append_iff.1 hab with ⟨v, h1, h2⟩ | ⟨v, h1, h2⟩
    · cases v with
      | nil =>
        rw [List.nil_append] at h2
        exact hE (by rw [← h2]; exact List.mem_append_left _ mE)
      | cons x v =>
        have hx : x = '*' := by
          rw [hm', List.cons_append, List.cons_append, List.cons_eq_cons] at h2
          exact h2.1.symm
        have : '*' ∈ d :: ' ' :: t := by rw [h1, hx]; simp
        simp only [List.mem_cons, ht, or_false] at this
        rcases this with h | h
        · exact hstar h.symm
        · exact absurd h (by decide)
    · exact hE (by rw [h2]; exact List.mem_append_right _ (List.mem_append_left _ mE))

theorem section_last {p last : Page α} {ps : List (Page α)} (h : Section (p :: ps)) (hl : (p :: ps).getLast? = some last) :
    last.head.nrow = p.head.nrow ∧ last.head.columns = p.head.columns ∧ last.head.itype = p.head.itype := by
  induction ps generalizing p with
  | nil =>
    simp only [List.getLast?_singleton, Option.some.injEq] at hl
    subst hl
    exact ⟨rfl, rfl, rfl⟩
  | cons q ps ih =>
    rw [List.getLast?_cons_cons] at hl
    obtain ⟨z1, z2, z3⟩ := same_size h
    rw [Section] at h
    obtain ⟨h1, h2, h3⟩ := ih h.2.2.2.2 hl
    exact ⟨h1.trans z1, h2.trans z2, h3.trans h.2.2.2.1⟩

/-- A request that is answered. -/
theorem serve_ok [Zero α] (prt : α → Fld) {r : Req} (hr : r.itype ≤ 3) {nrow ncol : Nat} {others : List (Page α)} {p : Page α} {ps : List (Page α)}
    {tss : List (List (Option α))} (h : Answer r nrow ncol others p ps tss) (c : Nat → Nat → α) (rest : List (Page α)) :
    ∃ (m : Nat → Nat → α) (head : List Char), (Decoded m (cells nrow ncol p.head.sym) tss ∧
        (p.head.ncol = 0 → ∀ a b, 1 ≤ a → a ≤ nrow → 1 ≤ b → b ≤ nrow → m a b = m b a)) ∧ isStart head = true ∧ ¬ marker <:+: head ∧
      serve prt r c (others ++ (p :: ps) ++ rest) = .ok ((List.replicate 4 []).map lineOf ++ head :: (fields prt r m nrow ncol).map lineOf, m, rest) := by
  have hf := find_ok (rest := ps ++ rest) (h.legal p (by simp)) h.asked others h.others_legal
  have h1 := h.rows
  have h2 := h.columns
  obtain ⟨⟨s, last, r'⟩, hx⟩ := C64_accepted p ps rest h.pages (fun q hq => (h.legal q (by simp [hq])).2.2.2) (by rw [h1, h2]; exact h.small) c tss
    h.contents (by rw [h1, h2]; exact h.complete) (by rw [h1, h2]; exact h.whole)
  obtain ⟨e1, e2, ⟨tss', e3, e4⟩, e5⟩ := C64_decompressed_partial p ps rest h.pages c s last r' hx
  have ht : tss' = tss := by
    have a := h.contents
    unfold Contents at e3 a
    clear hx e4 hf e1 e2 e5
    have h' : ∀ (l : List (Page α)) (t t' : List (List (Option α))), List.Forall₂ (fun p ts => expand p.icon p.xval = some ts) l t →
        List.Forall₂ (fun p ts => expand p.icon p.xval = some ts) l t' → t = t' := by
      intro l
      induction l with
      | nil => intro t t' g g'; cases g; cases g'; rfl
      | cons q l ih =>
        intro t t' g g'
        cases g with
        | cons g1 g2 => cases g' with
          | cons g3 g4 =>
            rw [g1, Option.some.injEq] at g3
            rw [g3, ih _ _ g2 g4]
    exact h' _ _ _ e3 a
  obtain ⟨z1, z2, z3⟩ := section_last h.pages e2
  obtain ⟨t, ht1, ht2⟩ := h.title
  have hit : last.head.itype ≤ 3 := by
    have := h.asked
    have := this.1
    omega
  obtain ⟨k1, k2⟩ := headLine_ok t last hit ht2
  refine ⟨s.c, headLine (' ' :: t) last, ⟨by rw [← ht, ← h1, ← h2]; exact e4, by rw [← h1]; exact e5⟩, k1, k2, ?_⟩
  unfold serve
  rw [show others ++ (p :: ps) ++ rest = others ++ p :: (ps ++ rest) by simp, hf]
  simp only
  rw [hx]
  simp only
  rw [block_eq, ht1, z1, z2, h1, h2, e1]

/-- **C64, end to end.** If the BOXER file holds, in this order and with other data between, the bounds of `n` groups, the cross sections, the relative
deviations and the covariance matrix of a reaction, compressed in whatever way, then what boxer2mat writes when asked by ASAPy is read back by
ASAPy as these numbers, as printed, from the highest group to the lowest; if only one half of the matrix is stored it is symmetric. -/
theorem C64_read_back [Zero α] (prt : α → Fld) (mat mt n : Nat) (hmat : mat ≠ 0) (c : Nat → Nat → α)
    (o0 o1 o2 o3 ps0 ps1 ps2 ps3 rest : List (Page α)) (p0 p1 p2 p3 : Page α) (t0 t1 t2 t3 : List (List (Option α)))
    (a0 : Answer ⟨0, mat, mt, mat, mt⟩ (n + 1) 1 o0 p0 ps0 t0) (a1 : Answer ⟨1, mat, mt, mat, mt⟩ n 1 o1 p1 ps1 t1)
    (a2 : Answer ⟨2, mat, mt, mat, mt⟩ n 1 o2 p2 ps2 t2) (a3 : Answer ⟨3, mat, mt, mat, mt⟩ n n o3 p3 ps3 t3) :
    ∃ (m0 m1 m2 m3 : Nat → Nat → α) (out : List (List Char)) (d : Data),
      Decoded m0 (cells (n + 1) 1 p0.head.sym) t0 ∧ Decoded m1 (cells n 1 p1.head.sym) t1 ∧ Decoded m2 (cells n 1 p2.head.sym) t2 ∧
      Decoded m3 (cells n n p3.head.sym) t3 ∧ (p3.head.ncol = 0 → ∀ a b, 1 ≤ a → a ≤ n → 1 ≤ b → b ≤ n → m3 a b = m3 b a) ∧
      boxr prt (template mat mt) c (o0 ++ (p0 :: ps0) ++ (o1 ++ (p1 :: ps1) ++ (o2 ++ (p2 :: ps2) ++ (o3 ++ (p3 :: ps3) ++ rest)))) = (out, 0) ∧
      readFile out = .ok d ∧
      d.bounds = (List.range (n + 1)).map (fun k => (prt (m0 (n + 1 - k) 1)).value) ∧
      d.xsec = (List.range n).map (fun k => (prt (m1 (n - k) 1)).value) ∧
      d.stdDev = (List.range n).map (fun k => (prt (m2 (n - k) 1)).value * (prt (m1 (n - k) 1)).value) ∧
      d.cov.length = n ∧
      ∀ k l, k < n → l < n → d.cov[k]?.bind (·[l]?) = some (prt (m3 (n - k) (n - l))).value := by
  obtain ⟨m0, h0, x0, y0, w0, v0⟩ := serve_ok prt (by simp) a0 c (o1 ++ (p1 :: ps1) ++ (o2 ++ (p2 :: ps2) ++ (o3 ++ (p3 :: ps3) ++ rest)))
  obtain ⟨m1, h1, x1, y1, w1, v1⟩ := serve_ok prt (by simp) a1 m0 (o2 ++ (p2 :: ps2) ++ (o3 ++ (p3 :: ps3) ++ rest))
  obtain ⟨m2, h2, x2, y2, w2, v2⟩ := serve_ok prt (by simp) a2 m1 (o3 ++ (p3 :: ps3) ++ rest)
  obtain ⟨m3, h3, x3, y3, w3, v3⟩ := serve_ok prt (by simp) a3 m2 rest
  have hvec : ∀ (r : Req) (m : Nat → Nat → α) (k : Nat), (fields prt r m k 1 ++ List.replicate 4 []).flatten = (List.range k).map fun i => prt (m (k - i) 1) := by
    intro r m k
    rw [List.flatten_append, fields_flatten, rows_vector]
    simp [Function.comp_def]
  obtain ⟨d, hd, g1, g2, g3, g4, g5⟩ := C48_written_file (List.replicate 4 []) (fields prt ⟨0, mat, mt, mat, mt⟩ m0 (n + 1) 1 ++ List.replicate 4 [])
    (fields prt ⟨1, mat, mt, mat, mt⟩ m1 n 1 ++ List.replicate 4 []) (fields prt ⟨2, mat, mt, mat, mt⟩ m2 n 1 ++ List.replicate 4 [])
    (fields prt ⟨3, mat, mt, mat, mt⟩ m3 n n) h0 h1 h2 h3 ⟨y0, y1, y2, y3⟩ (by intro h hh; simp only [List.mem_cons, List.not_mem_nil, or_false] at hh; rcases hh with rfl | rfl | rfl | rfl <;> assumption) (by rw [hvec, hvec]; simp)
    (by rw [hvec, fields_flatten, List.length_map, rows_length]; simp)
  refine ⟨m0, m1, m2, m3, _, d, x0.1, x1.1, x2.1, x3.1, x3.2, ?_, hd, ?_, ?_, ?_, ?_, ?_⟩
  · have e0 : boxr prt [(⟨0, 0, 0, 0, 0⟩ : Req)] m3 rest = ([], 0) := by rw [boxr, if_pos rfl]
    unfold template
    rw [boxr, if_neg hmat, v0]
    simp only
    rw [boxr, if_neg hmat, v1]
    simp only
    rw [boxr, if_neg hmat, v2]
    simp only
    rw [boxr, if_neg hmat, v3]
    simp only
    rw [e0]
    simp
  · rw [g1, hvec, List.map_map]; rfl
  · rw [g2, hvec, List.map_map]; rfl
  · rw [g3, hvec, hvec, List.zipWith_map, List.zipWith_self]
  · rw [g4, hvec]; simp
  · intro k l hk hl
    rw [hvec, List.length_map, List.length_range] at g5
    rw [g5 k l hk hl, fields_flatten, List.getElem?_map, rows_get _ (by simp) _ _ _ _ _ hk hl]
    rfl

/-! ### The data are those on the file -/

theorem count_starts (lines : List (List Char)) : (blockStarts lines).length = lines.countP isStart := by
  unfold blockStarts
  rw [List.length_map, ← List.countP_eq_length_filter]
  have : ∀ k, (lines.zipIdx k).countP (fun p => isStart p.1) = lines.countP isStart := by
    induction lines with
    | nil => intro k; rfl
    | cons l ls ih => intro k; simp [List.zipIdx_cons, List.countP_cons, ih]
  exact this 0

theorem count_block (prt : α → Fld) (r : Req) (first last : Page α) (c : Nat → Nat → α) : (block prt r first last c).countP isStart ≤ 1 := by
  have hz : ∀ fs : List (List Fld), (fs.map lineOf).countP isStart = 0 := by
    intro fs
    rw [List.countP_eq_zero]
    intro l hl
    obtain ⟨f, -, rfl⟩ := List.mem_map.1 hl
    rw [isStart_lineOf]
    decide
  rw [block_eq, List.countP_append, List.countP_cons, hz, hz]
  split_ifs <;> simp

theorem count_message (r : Req) (e : Halt) : (message r e).countP isStart = 0 := by
  have hw : ∀ (w : Char) (s : List Char), isSpace w = false → isDigit w = false → w ≠ '+' → w ≠ '-' → w ≠ '_' → isStart (' ' :: w :: s) = false := by
    intro w s h1 h2 h3 h4 h5
    unfold isStart split
    rw [splitGo, if_pos (by decide)]
    simp only [flush, if_true, List.nil_append]
    rw [splitGo, h1]
    simp only [Bool.false_eq_true, if_false, List.nil_append]
    obtain ⟨t, ws, e⟩ := splitGo_head s [w] (by simp)
    rw [e]
    simp [isInt, intGo, h2, h3, h4, h5]
  have hn : isStart ['\n'] = false := by decide
  cases e with
  | stop n => rfl
  | ended => rfl
  | missing =>
    obtain ⟨t, ht⟩ : ∃ t, " ***ERROR IN BOXR***CANNOT FIND ITYPE,MAT,MT,MAT1,MT1 =".toList = ' ' :: '*' :: t :=
      ⟨"**ERROR IN BOXR***CANNOT FIND ITYPE,MAT,MT,MAT1,MT1 =".toList, by decide +kernel⟩
    rw [message, ht, List.countP_eq_zero]
    intro l hl
    simp only [List.mem_cons, List.not_mem_nil, or_false, List.cons_append] at hl
    rcases hl with rfl | rfl
    · rw [hn]; decide
    · rw [hw '*' _ (by decide) (by decide) (by decide) (by decide) (by decide)]; decide
  | groups =>
    rw [message]
    decide +kernel
  | formats =>
    rw [message]
    decide +kernel

theorem serve_split [Zero α] {prt : α → Fld} {r : Req} {c c' : Nat → Nat → α} {ps rest : List (Page α)} {out : List (List Char)}
    (h : serve prt r c ps = .ok (out, c', rest)) : out.countP isStart ≤ 1 ∧ ∃ p o u, Asked r p.head ∧ ps = o ++ p :: (u ++ rest) := by
  unfold serve at h
  cases hf : find r ps with
  | error e => rw [hf] at h; cases h
  | ok x =>
    obtain ⟨p, rest0⟩ := x
    rw [hf] at h
    simp only at h
    cases hl : loadPages p rest0 1 ⟨c, 1, 0, 0⟩ with
    | error e => rw [hl] at h; cases h
    | ok y =>
      obtain ⟨s, last, r'⟩ := y
      rw [hl] at h
      simp only [Except.ok.injEq, Prod.mk.injEq] at h
      obtain ⟨rfl, rfl, rfl⟩ := h
      obtain ⟨g1, o, g2⟩ := find_split ps hf
      obtain ⟨u, hu⟩ := loadPages_rest _ _ _ _ _ _ _ hl
      exact ⟨count_block _ _ _ _ _, p, o, u, g1, by rw [g2, hu]⟩

/-- The requests that are served all have their page on the file, in order; the others leave the file without a block. -/
theorem boxr_count [Zero α] (prt : α → Fld) : ∀ (rs : List Req) (c : Nat → Nat → α) (ps : List (Page α)), (∀ r ∈ rs, r.mat ≠ 0) → ∀ (tail : List Req),
    (∀ c ps, (boxr prt tail c ps).1.countP isStart = 0) → rs.length ≤ (boxr prt (rs ++ tail) c ps).1.countP isStart →
    ∃ found : List (Page α), found.Sublist ps ∧ List.Forall₂ (fun r p => Asked r p.head) rs found
  | [], c, ps, _, tail, _, _ => ⟨[], List.nil_sublist _, .nil⟩
  | r :: rs, c, ps, hm, tail, ht, hc => by
    rw [List.cons_append, boxr, if_neg (hm r (by simp))] at hc
    cases hs : serve prt r c ps with
    | error e =>
      rw [hs] at hc
      simp only [count_message] at hc
      simp at hc
    | ok x =>
      obtain ⟨out, c', rest⟩ := x
      rw [hs] at hc
      simp only [List.countP_append, List.length_cons] at hc
      obtain ⟨h1, p, o, u, hw, h⟩ := serve_split hs
      obtain ⟨found, f1, f2⟩ := boxr_count prt rs c' rest (fun r' hr' => hm r' (by simp [hr'])) tail ht (by omega)
      refine ⟨p :: found, ?_, .cons hw f2⟩
      rw [h]
      exact (List.Sublist.cons_cons p (f1.trans (List.sublist_append_right _ _))).trans (List.sublist_append_right _ _)

/-- **C64.** Whatever the file holds: if ASAPy reads what boxer2mat writes at its request, then the four kinds of data of this reaction are on the file, in
this order. If one is missing, or a matrix is broken, reading raises. -/
theorem C64_only_data_on_file [Zero α] (prt : α → Fld) (mat mt : Nat) (hmat : mat ≠ 0) (c : Nat → Nat → α) (ps : List (Page α)) (d : Data)
    (h : readFile (boxr prt (template mat mt) c ps).1 = .ok d) :
    ∃ p0 p1 p2 p3, [p0, p1, p2, p3].Sublist ps ∧ p0.head.itype = 0 ∧ (p1.head.itype = 1 ∧ p1.head.mat = mat ∧ p1.head.mt = mt) ∧
      (p2.head.itype = 2 ∧ p2.head.mat = mat ∧ p2.head.mt = mt) ∧
      (p3.head.itype = 3 ∧ p3.head.mat = mat ∧ p3.head.mt = mt ∧ p3.head.mat1 = mat ∧ p3.head.mt1 = mt) := by
  have hcount : 4 ≤ (boxr prt (template mat mt) c ps).1.countP isStart := by
    by_contra hc
    obtain ⟨e, he⟩ := C48_too_few (boxr prt (template mat mt) c ps).1 (by rw [count_starts]; omega)
    rw [he] at h
    cases h
  obtain ⟨found, f1, f2⟩ := boxr_count prt ((template mat mt).take 4) c ps (by
    intro r hr
    simp only [template, List.take_succ_cons, List.take_zero, List.mem_cons, List.not_mem_nil, or_false] at hr
    rcases hr with rfl | rfl | rfl | rfl <;> exact hmat) ((template mat mt).drop 4) (by
    intro c ps
    simp only [template, List.drop_succ_cons, List.drop_zero]
    rw [boxr, if_pos rfl]
    rfl) (by rw [List.take_append_drop]; exact hcount)
  simp only [template, List.take_succ_cons, List.take_zero] at f2
  cases f2 with
  | cons w0 f2 => cases f2 with
    | cons w1 f2 => cases f2 with
      | cons w2 f2 => cases f2 with
        | cons w3 f2 =>
          cases f2
          refine ⟨_, _, _, _, f1, ?_⟩
          simp [Asked] at w0 w1 w2 w3
          tauto

/-! ### An example -/

/-- One digit. -/
def demoPrt (v : Nat) : Fld := ⟨false, Fin.ofNat 10000 (1000 * (v % 10)), false, 0⟩

def demoHead (itype nrowm nrow ncol : Nat) : Head := ⟨itype, " demo".toList, 9228, 18, 9228, 18, 10, 3, nrowm, nrow, ncol⟩

/-- Two groups: bounds 1 4 8, cross sections 2 3, deviations 5 5 and a symmetric covariance matrix on two pages. -/
def demoTape : List (Page Nat) :=
  [⟨demoHead 0 0 3 1, [1, 4, 8], [-1, -1, -1]⟩, ⟨demoHead 1 0 2 1, [2, 3], [-1, -1]⟩, ⟨demoHead 2 0 2 1, [5], [-2]⟩,
   ⟨demoHead 3 1 2 0, [7], [-2]⟩, ⟨demoHead 3 0 2 0, [9], [-1]⟩]

example : (boxr demoPrt (template 9228 18) (fun _ _ => 0) demoTape).2 = 0 ∧
    readFile (boxr demoPrt (template 9228 18) (fun _ _ => 0) demoTape).1 = .ok ⟨[8, 4, 1], [3, 2], [15, 10], [[9, 7], [7, 7]]⟩ := by decide +kernel

example : Answer (⟨3, 9228, 18, 9228, 18⟩ : Req) 2 2 [] (⟨demoHead 3 1 2 0, [7], [-2]⟩ : Page Nat) [⟨demoHead 3 0 2 0, [9], [-1]⟩]
    [[some 7, some 7], [some 9]] where
  others_legal := by simp
  legal := by
    intro q hq
    simp only [List.mem_cons, List.not_mem_nil, or_false] at hq
    rcases hq with rfl | rfl <;> refine ⟨?_, ?_, ?_, ?_⟩ <;> first | decide | (unfold Head.Formats; decide)
  asked := by unfold Asked; decide
  pages := ⟨by decide, rfl, rfl, rfl, rfl, by decide⟩
  rows := rfl
  columns := rfl
  small := by decide
  contents := .cons (by decide) (.cons (by decide) .nil)
  complete := by decide
  whole := by
    intro k h1 h2
    have : k = 1 := by simp at h2; omega
    subst this
    exact ⟨1, le_rfl, by decide⟩
  title := ⟨"demo".toList, by decide, by decide⟩

/-- Without the cross sections the reader raises. -/
example : readFile (boxr demoPrt (template 9228 18) (fun _ _ => 0) (demoTape.eraseIdx 1)).1 = .error .runtimeError := by decide +kernel

end ASAPy.Boxr
