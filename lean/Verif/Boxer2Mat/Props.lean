import Verif.Boxer2Mat.Lemmas
import Verif.Boxer.Props

/-! # C64: boxer2mat -/

namespace ASAPy.Boxr
open ASAPy.Boxer

variable {α : Type}

theorem size_head {h : Head} (hn : 1 ≤ h.nrow) : Size h.nrow h.columns h.sym := by
  unfold Size Head.columns Head.sym
  split_ifs with h0
  · simp [h0, hn]
  · exact ⟨hn, by omega, by simp [h0]⟩

theorem section_nrow {p : Page α} {ps : List (Page α)} (h : Section (p :: ps)) : 1 ≤ p.head.nrow := by
  induction ps generalizing p with
  | nil => exact h.2
  | cons q ps ih =>
    rw [Section] at h
    rw [← h.2.1]
    exact ih h.2.2.2.2

theorem same_size {p q : Page α} {ps : List (Page α)} (h : Section (p :: q :: ps)) :
    q.head.nrow = p.head.nrow ∧ q.head.columns = p.head.columns ∧ q.head.sym = p.head.sym := by
  rw [Section] at h
  unfold Head.columns Head.sym
  rw [h.2.1, h.2.2.1]
  exact ⟨rfl, rfl, rfl⟩

/-- When a page ends at the last column, the next row comes next. -/
theorem after_row {nrow ncol : Nat} {sym : Bool} {i j : Nat} (hz : Size nrow ncol sym) (hj : j = ncol) {q : Nat × Nat} {R : List (Nat × Nat)}
    (h : after nrow ncol sym i j = q :: R) : q.1 = i + 1 := by
  by_cases hi : i < nrow
  · rw [after_new hz hj.ge hi, List.cons_eq_cons] at h
    rw [← h.1]
  · rw [after_end hj.ge (by omega)] at h
    cases h

theorem load_spec [Zero α] {nrow ncol : Nat} {sym : Bool} (hz : Size nrow ncol sym) (rest : List (Page α)) :
    ∀ (ps : List (Page α)) (p : Page α) (istart : Nat) (s : St α) (done : List (Nat × Nat)) (s' : St α) (last : Page α) (r : List (Page α)),
    Section (p :: ps) → p.head.nrow = nrow → p.head.columns = ncol → p.head.sym = sym → 1 ≤ istart → Inv nrow ncol sym done s →
    (∀ q R, after nrow ncol sym s.i s.j = q :: R → q.1 = istart) → loadPages p (ps ++ rest) istart s = .ok (s', last, r) →
    r = rest ∧ (p :: ps).getLast? = some last ∧ ∃ tss, Contents (p :: ps) tss ∧ Decoded s'.c (after nrow ncol sym s.i s.j) tss ∧
      (∀ q ∈ done, s'.c q.1 q.2 = s.c q.1 q.2) ∧ Inv nrow ncol sym (cells nrow ncol sym) s' := by
  intro ps
  induction ps with
  | nil =>
    intro p istart s done s' last r hs h1 h2 h3 h4 hi hst h
    rw [loadPages, h1, h2, h3] at h
    by_cases c1 : nrow > 800 ∨ ncol > 800
    · rw [if_pos c1] at h; cases h
    rw [if_neg c1] at h
    cases hc : controls nrow ncol sym istart p.icon p.xval s with
    | error e => rw [hc] at h; cases h
    | ok s1 =>
      rw [hc] at h
      simp only at h
      rw [if_pos hs.1] at h
      split_ifs at h with c2
      simp only [List.nil_append, Except.ok.injEq, Prod.mk.injEq] at h
      obtain ⟨rfl, rfl, rfl⟩ := h
      obtain ⟨ts, e1, e2⟩ := (controls_ok _ _ _ _).1 hc
      obtain ⟨f1, f2⟩ := fill_spec h4 hz ts done s hi
      obtain ⟨g1, g2, g3, g4⟩ := f2 _ e2
      have hlen := f1.1 ⟨_, e2⟩
      have hall : (after nrow ncol sym s.i s.j).drop ts.length = [] := by
        have a1 := sum_cells hz
        have a2 := g1.count
        rw [c2] at a2
        have a3 := g1.split
        rw [g2] at a3
        rw [← a3, List.map_append, List.sum_append, ← a2] at a1
        exact sum_pos (sym := sym) (by omega)
      refine ⟨rfl, rfl, [ts], .cons e1 .nil, ⟨hlen, ?_, hall⟩, g3, ?_⟩
      · intro q hq
        rw [g4 q hq]
        unfold loaded
        cases hR : after nrow ncol sym s.i s.j with
        | nil => rw [hR] at hq; simp at hq
        | cons q0 R => simp [hst q0 R hR]
      · have a3 := g1.split
        rw [g2, hall, List.append_nil] at a3
        rw [← a3]
        exact a3 ▸ g1
  | cons q ps ih =>
    intro p istart s done s' last r hs h1 h2 h3 h4 hi hst h
    obtain ⟨z1, z2, z3⟩ := same_size hs
    have hs' := hs
    rw [Section] at hs'
    rw [loadPages, h1, h2, h3] at h
    by_cases c1 : nrow > 800 ∨ ncol > 800
    · rw [if_pos c1] at h; cases h
    rw [if_neg c1] at h
    cases hc : controls nrow ncol sym istart p.icon p.xval s with
    | error e => rw [hc] at h; cases h
    | ok s1 =>
      rw [hc] at h
      simp only at h
      rw [if_neg hs'.1] at h
      split_ifs at h with c2
      simp only [List.cons_append] at h
      split_ifs at h with c3
      rw [not_not] at c2
      obtain ⟨ts, e1, e2⟩ := (controls_ok _ _ _ _).1 hc
      obtain ⟨f1, f2⟩ := fill_spec h4 hz ts done s hi
      obtain ⟨g1, g2, g3, g4⟩ := f2 _ e2
      have hlen := f1.1 ⟨_, e2⟩
      obtain ⟨k1, k2, tss, k3, k4, k5, k6⟩ := ih q (s1.i + 1) s1 _ s' last r hs'.2.2.2.2 (z1.trans h1) (z2.trans h2) (z3.trans h3) (by omega) g1
        (fun q0 R hR => after_row hz c2 hR) h
      rw [g2] at k4
      refine ⟨k1, by rw [List.getLast?_cons_cons]; exact k2, ts :: tss, .cons e1 k3, ⟨hlen, ?_, k4⟩, fun d hd => ?_, k6⟩
      · intro d hd
        have hd' : d.1 ∈ done ++ (after nrow ncol sym s.i s.j).take ts.length := by
          exact List.mem_append_right _ (zip_mem_take _ _ _ hd)
        rw [k5 d.1 hd', g4 d hd]
        have habove : istart < d.1.1 → s'.c (d.1.1 - 1) d.1.2 = s1.c (d.1.1 - 1) d.1.2 := by
          intro hlt
          refine k5 (d.1.1 - 1, d.1.2) ?_
          obtain ⟨l1, l2, hl⟩ := List.append_of_mem hd'
          have hspl := g1.split
          rw [hl, List.append_assoc, List.cons_append] at hspl
          rw [hl]
          exact List.mem_append_left _ ((next_facts (i := d.1.1) (j := d.1.2) hspl).2.2.1 (by omega))
        unfold loaded
        cases hR : after nrow ncol sym s.i s.j with
        | nil => rw [hR] at hd; simp at hd
        | cons q0 R =>
          simp only [List.head?_cons, Option.map_some, Option.getD_some, hst q0 R hR]
          split_ifs with hlt
          · rw [habove hlt]
          · rfl
      · rw [k5 d (List.mem_append_left _ hd), g3 d hd]

theorem inv_start {nrow ncol : Nat} {sym : Bool} (hz : Size nrow ncol sym) (c : Nat → Nat → α) : Inv nrow ncol sym [] (⟨c, 1, 0, 0⟩ : St α) :=
  ⟨(cells_after hz.1).symm, Nat.zero_le _, hz.1, rfl, fun _ p hp => (by simp at hp), Or.inl rfl⟩

theorem formats_iff {h : Head} : formatsOk h = true ↔ h.Formats := by
  simp [formatsOk, Head.Formats, and_assoc]

theorem wanted_iff {r : Req} {h : Head} : wanted r h = true ↔ Asked r h := by
  simp only [wanted, Asked, Bool.and_eq_true, Bool.or_eq_true, decide_eq_true_eq, List.mem_cons, List.not_mem_nil, or_false]
  tauto

/-- **C64.** Whatever the array held before, if the pages of a matrix are loaded without an error, then their control numbers and values describe its
elements in row order, none missing and none left over; the matrix holds them; it is symmetric if only one half is stored. -/
theorem C64_decompressed_partial [Zero α] (p : Page α) (ps rest : List (Page α)) (hs : Section (p :: ps)) (c : Nat → Nat → α) (s : St α) (last : Page α)
    (r : List (Page α)) (h : loadPages p (ps ++ rest) 1 ⟨c, 1, 0, 0⟩ = .ok (s, last, r)) :
    r = rest ∧ (p :: ps).getLast? = some last ∧
    (∃ tss, Contents (p :: ps) tss ∧ Decoded s.c (cells p.head.nrow p.head.columns p.head.sym) tss) ∧
    (p.head.ncol = 0 → ∀ a b, 1 ≤ a → a ≤ p.head.nrow → 1 ≤ b → b ≤ p.head.nrow → s.c a b = s.c b a) := by
  have hz := size_head (section_nrow hs)
  obtain ⟨h1, h2, tss, h3, h4, -, h5⟩ := load_spec hz rest ps p 1 ⟨c, 1, 0, 0⟩ [] s last r hs rfl rfl rfl le_rfl (inv_start hz c)
    (fun q R hR => by
      rw [after_same hz.2.1, List.cons_eq_cons] at hR
      rw [← hR.1]) h
  rw [← cells_after hz.1] at h4
  refine ⟨h1, h2, ⟨tss, h3, h4⟩, fun h0 a b a1 a2 b1 b2 => ?_⟩
  have hsym : p.head.sym = true := by simp [Head.sym, h0]
  have hcol : p.head.columns = p.head.nrow := by simp [Head.columns, h0]
  rcases le_total a b with hab | hab
  · have := h5.mirror hsym (a, b) (mem_cells.2 ⟨a1, a2, b1, by rw [hcol]; exact b2, fun _ => hab⟩)
    exact this.symm
  · exact h5.mirror hsym (b, a) (mem_cells.2 ⟨b1, b2, a1, by rw [hcol]; exact a2, fun _ => hab⟩)

/-- A state after whole rows is at the last column. -/
theorem inv_row {nrow ncol : Nat} {sym : Bool} (hz : Size nrow ncol sym) {done : List (Nat × Nat)} {s : St α} (hi : Inv nrow ncol sym done s) {r : Nat}
    (hr : 1 ≤ r) (h : done.length = ((cells nrow ncol sym).filter fun p => decide (p.1 ≤ r)).length) : s.j = ncol := by
  have hd : done = (cells nrow ncol sym).filter fun p => decide (p.1 ≤ r) := by
    rw [← cells_rows, ← h, ← hi.split, List.take_left']
    rfl
  have hne : done ≠ [] := by
    intro hc
    have : (1, 1) ∈ done := by
      rw [hd, List.mem_filter, mem_cells]
      exact ⟨⟨le_rfl, hz.1, le_rfl, hz.2.1, fun _ => le_rfl⟩, by simpa using hr⟩
    rw [hc] at this
    cases this
  have hm := hi.last.resolve_left hne
  have hir : s.i ≤ r := by
    rw [hd, List.mem_filter] at hm
    simpa using hm.2
  by_contra hc
  have hlt : s.j < ncol := lt_of_le_of_ne hi.col hc
  have hsp := hi.split
  rw [after_same hlt] at hsp
  obtain ⟨f1, f2, -⟩ := next_facts hsp
  apply f1
  rw [hd, List.mem_filter]
  exact ⟨f2, by simpa using hir⟩

theorem load_ok [Zero α] {nrow ncol : Nat} {sym : Bool} (hz : Size nrow ncol sym) (h800 : nrow ≤ 800 ∧ ncol ≤ 800) (rest : List (Page α)) :
    ∀ (ps : List (Page α)) (p : Page α) (istart : Nat) (s : St α) (done : List (Nat × Nat)) (tss : List (List (Option α))),
    Section (p :: ps) → (∀ q ∈ ps, formatsOk q.head = true) → p.head.nrow = nrow → p.head.columns = ncol → p.head.sym = sym → 1 ≤ istart →
    Inv nrow ncol sym done s → Contents (p :: ps) tss → tss.flatten.length = (after nrow ncol sym s.i s.j).length →
    (∀ k, 1 ≤ k → k < tss.length → ∃ r, 1 ≤ r ∧ done.length + (tss.take k).flatten.length =
      ((cells nrow ncol sym).filter fun p => decide (p.1 ≤ r)).length) →
    ∃ x, loadPages p (ps ++ rest) istart s = .ok x := by
  intro ps
  induction ps with
  | nil =>
    intro p istart s done tss hs hf h1 h2 h3 h4 hi hc hl hw
    obtain ⟨ts, _, e1, e2, rfl⟩ := List.forall₂_cons_left_iff.1 hc
    rw [List.forall₂_nil_left_iff] at e2
    subst e2
    simp only [List.flatten_cons, List.flatten_nil, List.append_nil] at hl
    obtain ⟨f1, f2⟩ := fill_spec h4 hz ts done s hi
    obtain ⟨s1, e3⟩ := f1.2 hl.le
    obtain ⟨g1, g2, g3, g4⟩ := f2 _ e3
    have hco := (controls_ok p.icon p.xval s s1).2 ⟨ts, e1, e3⟩
    refine ⟨(s1, p, rest), ?_⟩
    rw [loadPages, h1, h2, h3, if_neg (by omega), hco]
    simp only
    rw [if_pos hs.1, if_pos]
    · rfl
    · rw [g1.count, ← sum_cells hz]
      congr 2
      rw [← g1.split, g2, List.drop_of_length_le hl.ge, List.append_nil]
  | cons q ps ih =>
    intro p istart s done tss hs hf h1 h2 h3 h4 hi hc hl hw
    obtain ⟨z1, z2, z3⟩ := same_size hs
    have hs' := hs
    rw [Section] at hs'
    obtain ⟨ts, tss', e1, e2, rfl⟩ := List.forall₂_cons_left_iff.1 hc
    have hlen : tss'.length = ps.length + 1 := by rw [← e2.length_eq]; rfl
    rw [List.flatten_cons, List.length_append] at hl
    obtain ⟨f1, f2⟩ := fill_spec h4 hz ts done s hi
    obtain ⟨s1, e3⟩ := f1.2 (by omega)
    obtain ⟨g1, g2, g3, g4⟩ := f2 _ e3
    have hco := (controls_ok p.icon p.xval s s1).2 ⟨ts, e1, e3⟩
    have hdl : (done ++ (after nrow ncol sym s.i s.j).take ts.length).length = done.length + ts.length := by
      rw [List.length_append, List.length_take, min_eq_left (by omega)]
    have hj : s1.j = ncol := by
      obtain ⟨r, hr, hr'⟩ := hw 1 le_rfl (by simp; omega)
      refine inv_row hz g1 hr ?_
      rw [hdl, ← hr']
      simp
    obtain ⟨x, hx⟩ := ih q (s1.i + 1) s1 _ tss' hs'.2.2.2.2 (fun q' hq' => hf q' (by simp [hq'])) (z1.trans h1) (z2.trans h2) (z3.trans h3) (by omega)
      g1 e2 (by rw [g2, List.length_drop]; omega) (by
        intro k hk hk'
        obtain ⟨r, hr, hr'⟩ := hw (k + 1) (by omega) (by simp; omega)
        refine ⟨r, hr, ?_⟩
        rw [hdl, ← hr']
        simp
        omega)
    refine ⟨x, ?_⟩
    rw [loadPages, h1, h2, h3, if_neg (by omega), hco]
    simp only
    rw [if_neg hs'.1, if_neg (by simpa using hj)]
    simp only [List.cons_append]
    rw [if_pos (hf q (by simp))]
    exact hx

/-- **C64.** The pages of a matrix of at most 800 groups are loaded if they describe just its elements, and each page but the last ends at the end of
a row. -/
theorem C64_accepted [Zero α] (p : Page α) (ps rest : List (Page α)) (hs : Section (p :: ps)) (hf : ∀ q ∈ ps, q.head.Formats)
    (h800 : p.head.nrow ≤ 800 ∧ p.head.columns ≤ 800) (c : Nat → Nat → α) (tss : List (List (Option α))) (hc : Contents (p :: ps) tss)
    (hl : tss.flatten.length = (cells p.head.nrow p.head.columns p.head.sym).length)
    (hw : WholeRows (cells p.head.nrow p.head.columns p.head.sym) tss) : ∃ x, loadPages p (ps ++ rest) 1 ⟨c, 1, 0, 0⟩ = .ok x := by
  have hz := size_head (section_nrow hs)
  refine load_ok hz h800 rest ps p 1 ⟨c, 1, 0, 0⟩ [] tss hs (fun q hq => formats_iff.mpr (hf q hq)) rfl rfl rfl le_rfl (inv_start hz c) hc (by rw [← cells_after hz.1]; exact hl) ?_
  simpa [WholeRows] using hw

theorem decoded_unique [Zero α] {nrow ncol : Nat} {sym : Bool} {m m' : Nat → Nat → α} : ∀ (tss : List (List (Option α))) (done cs : List (Nat × Nat)),
    done ++ cs = cells nrow ncol sym → (∀ q ∈ done, m q.1 q.2 = m' q.1 q.2) → Decoded m cs tss → Decoded m' cs tss →
    ∀ q ∈ cells nrow ncol sym, m q.1 q.2 = m' q.1 q.2
  | [], done, cs, hd, hq, h, _ => by
    rw [Decoded] at h
    subst h
    rw [List.append_nil] at hd
    rw [← hd]
    exact hq
  | t :: tss, done, cs, hd, hq, h, h' => by
    obtain ⟨h1, h2, h3⟩ := h
    obtain ⟨-, h2', h3'⟩ := h'
    refine decoded_unique tss (done ++ cs.take t.length) (cs.drop t.length) (by rw [List.append_assoc, List.take_append_drop, hd]) ?_ h3 h3'
    obtain ⟨f, hf⟩ : ∃ f, (cs.head?.map Prod.fst).getD 0 = f := ⟨_, rfl⟩
    rw [hf] at h2 h2'
    have hf1 : ∀ q ∈ List.zip cs t, f < q.1.1 → 2 ≤ q.1.1 := by
      intro q hq' hlt
      cases cs with
      | nil => simp at hq'
      | cons c cs =>
        simp only [List.head?_cons, Option.map_some, Option.getD_some] at hf
        have : c ∈ cells nrow ncol sym := by rw [← hd]; simp
        have := (mem_cells (a := c.1) (b := c.2)).1 this
        omega
    have key : ∀ (t : List (Option α)) (done cs : List (Nat × Nat)), done ++ cs = cells nrow ncol sym → (∀ q ∈ done, m q.1 q.2 = m' q.1 q.2) →
        t.length ≤ cs.length → (∀ q ∈ List.zip cs t, f < q.1.1 → 2 ≤ q.1.1) →
        (∀ p ∈ List.zip cs t, m p.1.1 p.1.2 = p.2.getD (if f < p.1.1 then m (p.1.1 - 1) p.1.2 else 0)) →
        (∀ p ∈ List.zip cs t, m' p.1.1 p.1.2 = p.2.getD (if f < p.1.1 then m' (p.1.1 - 1) p.1.2 else 0)) →
        ∀ q ∈ done ++ cs.take t.length, m q.1 q.2 = m' q.1 q.2 := by
      intro t
      induction t with
      | nil => intro done cs _ hq _ _ _ _ q hq'; exact hq q (by simpa using hq')
      | cons o t ih =>
        intro done cs hd hq hl hf1 g g'
        cases cs with
        | nil => simp at hl
        | cons c cs =>
          have hc : m c.1 c.2 = m' c.1 c.2 := by
            rw [g (c, o) (by simp), g' (c, o) (by simp)]
            cases o with
            | some v => rfl
            | none =>
              simp only [Option.getD_none]
              split_ifs with hlt
              · exact hq _ ((next_facts (i := c.1) (j := c.2) hd).2.2.1 (hf1 (c, none) (by simp) hlt))
              · rfl
          have := ih (done ++ [c]) cs (by rw [← hd]; simp) (by
            intro q hq'
            rw [List.mem_append, List.mem_singleton] at hq'
            rcases hq' with hq' | rfl
            · exact hq q hq'
            · exact hc) (by simpa using hl) (fun q hq' => hf1 q (by simp [hq'])) (fun q hq' => g q (by simp [hq'])) (fun q hq' => g' q (by simp [hq']))
          intro q hq'
          exact this q (by simpa using hq')
    exact key t done cs hd hq h1 hf1 h2 h2'

/-- **C64.** What the pages say determines the elements stored. -/
theorem C64_unique [Zero α] (nrow ncol : Nat) (sym : Bool) (m m' : Nat → Nat → α) (tss : List (List (Option α)))
    (h : Decoded m (cells nrow ncol sym) tss) (h' : Decoded m' (cells nrow ncol sym) tss) (a b : Nat) (ha : 1 ≤ a ∧ a ≤ nrow) (hb : 1 ≤ b ∧ b ≤ ncol)
    (hs : sym = true → a ≤ b) : m a b = m' a b :=
  decoded_unique tss [] _ rfl (fun q hq => by simp at hq) h h' (a, b) (mem_cells.2 ⟨ha.1, ha.2, hb.1, hb.2, hs⟩)

/-- The two pages of a symmetric matrix of three groups: 5 6 6 / 6 0 / 7. -/
def demoPages : List (Page Int) :=
  [⟨⟨3, " demo".toList, 9228, 18, 9228, 18, 10, 3, 1, 3, 0⟩, [5, 6], [-1, -2]⟩, ⟨⟨3, " more".toList, 9228, 18, 9228, 18, 10, 3, 0, 3, 0⟩, [6, 7], [-1, 1, -1]⟩]

example : Section demoPages := by
  refine ⟨by decide, rfl, rfl, rfl, rfl, by decide⟩

example : Contents demoPages [[some 5, some 6, some 6], [some 6, none, some 7]] := .cons (by decide) (.cons (by decide) .nil)

example : WholeRows (cells 3 3 true) [[some (5 : Int), some 6, some 6], [some 6, none, some 7]] := by
  intro k h1 h2
  have : k = 1 := by simp at h2; omega
  subst this
  exact ⟨1, le_rfl, by decide⟩

/-- In the first row of the second page an element equal to the one above is zero. -/
example : (match demoPages with
    | p :: ps => (loadPages p ps 1 ⟨fun _ _ => 99, 1, 0, 0⟩).toOption.map fun x => (List.range 3).map fun i => (List.range 3).map fun j => x.1.c (i + 1) (j + 1)
    | [] => none) = some [[5, 6, 6], [6, 6, 0], [6, 0, 7]] := by decide +kernel

/-- If a page announces another number of columns than the page before it, the count may still agree: an element of the result is then what the array
held before, from another matrix. -/
theorem C64_mixed_refuted (x : Int) : ∃ s last r, loadPages (⟨⟨3, [], 1, 1, 1, 1, 10, 3, 1, 1, 3⟩, [5], [-3]⟩ : Page Int)
    [⟨⟨3, [], 1, 1, 1, 1, 10, 3, 0, 2, 2⟩, [6], [-1]⟩] 1 ⟨fun _ _ => x, 1, 0, 0⟩ = .ok (s, last, r) ∧ s.c 2 2 = x := by
  refine ⟨_, _, _, by
    rw [loadPages]
    simp [Head.columns, Head.sym, controls, placeN, place, formatsOk]
    rw [loadPages]
    simp [Head.columns, Head.sym, controls, placeN, place]
    exact ⟨rfl, rfl, rfl⟩, ?_⟩
  simp [put]

end ASAPy.Boxr
