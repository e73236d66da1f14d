import Verif.Res.Props

/-!
# Properties of resonance parameters: unresolved ranges, R-matrix limited, the section (C146-C148)
-/

namespace ASAPy.Res
open ASAPy.Endf ASAPy.Decay

theorem exists_of_forall₂ {α β : Type} {R : α → β → Prop} {as : List α} {bs : List β} (h : List.Forall₂ R as bs) {a : α} (ha : a ∈ as) : ∃ b ∈ bs, R a b := by
  induction h with
  | nil => simp at ha
  | cons h1 _ ih =>
    rcases List.mem_cons.mp ha with rfl | ha
    · exact ⟨_, by simp, h1⟩
    · obtain ⟨b, hb, hr⟩ := ih ha
      exact ⟨b, by simp [hb], hr⟩

/-! ### Unresolved ranges -/

theorem rowA_spec {l : Int} {r : RowA} {x : ℚ} (hl : r.l = l) (hg : r.gf = 0) (pre post : List ℚ) (i : Nat) (hp : pre.length = 6 * i) :
    rowA l (pre ++ [r.d, r.j, r.amun, r.gn, r.gg, x] ++ post) i = .ok r := by
  unfold rowA
  rw [List.append_assoc, ← hp, List.drop_left]
  obtain ⟨l', j, d, a, gn, gg, gf⟩ := r
  simp only at hl hg
  subst hl hg
  rfl

theorem blockA_spec {rows : List RowA} {ls : List Line} (h : ARec rows ls) (rest : List Line) : blockA (ls ++ rest) = .ok (rows, rest) := by
  obtain ⟨c, vss, h1, h2, h3⟩ := h
  unfold blockA
  rw [getList_rec h1]
  simp only [bind, Except.bind]
  have := rowsFrom_pieces (row := rowA c.l1) (k := 6) (xs := rows) (vss := vss)
    (h3.imp fun r vs ⟨e1, e2, x, e3⟩ => ⟨by rw [e3]; rfl, fun pre post i hp => by rw [e3]; exact rowA_spec e1 e2 pre post i hp⟩) [] [] 0 rfl
  rw [List.nil_append, List.append_nil] at this
  rw [h2, Int.toNat_natCast, this]
  rfl

theorem unrHead_radius {items : Cont} {ape : Option Radius} {spi ap : ℚ} {lssf : Int} {r : Unr} (h : UnrHead items ape spi ap lssf r) :
    ape.getD (.const ap) = r.scattering := by
  rcases h.2.2.2.2 with ⟨_, rfl, hs⟩ | ⟨_, rfl⟩
  · exact hs.symm
  · rfl

theorem unrHead_background {items : Cont} {ape : Option Radius} {spi ap : ℚ} {lssf : Int} {r : Unr} (h : UnrHead items ape spi ap lssf r) :
    decide (lssf = 0) = r.background := by
  rw [Bool.eq_iff_iff, decide_eq_true_iff, h.2.2.2.1]

/-- C146, without fission widths and with parameters that do not depend on energy (case A): all rows, in order, with spin, limits and radius. -/
theorem C146_constant_partial (items : Cont) (hf : items.l2 = 1) (r : Unr) (ls rest : List Line) (h : UnrA items r ls) :
    readUnr false items (ls ++ rest) = .ok (.unr r, rest) := by
  obtain ⟨t, ape, l, c, rss, bls, rfl, h1, h2, h3, h4, h5, h6, h7⟩ := h
  unfold readUnr
  rw [List.append_assoc, readRadius_spec h1]
  simp only [bind, Except.bind, List.cons_append]
  rw [if_neg (by simp), getCont_line h2]
  simp only
  rw [if_pos hf, many_of h3 (h5.imp fun a b hh rest => blockA_spec hh rest)]
  simp only [pure, Except.pure]
  have hr := unrHead_radius h4
  have hb := unrHead_background h4
  obtain ⟨a1, a2, a3, a4, a5⟩ := h4
  obtain ⟨spin, emin, emax, sc, en, par, bg⟩ := r
  simp only at a1 a2 a3 h6 h7 hr hb
  rw [hr, hb, ← a1, ← a2, ← a3, h6, h7]

theorem rowC_spec {l : Int} {j : ℚ} {r : RowC} (hl : r.l = l) (hj : r.j = j) (pre post : List ℚ) (i : Nat) (hp : pre.length = 6 * i) :
    rowC l j (pre ++ [r.e, r.d, r.gx, r.gn0, r.gg, r.gf] ++ post) i = .ok r := by
  unfold rowC
  rw [nth_at0 hp rfl, nth_at hp (k := 1) rfl, nth_at hp (k := 2) rfl, nth_at hp (k := 3) rfl, nth_at hp (k := 4) rfl, nth_at hp (k := 5) rfl]
  subst hl hj
  rfl

theorem rowsC_spec {l : Int} {rows : List RowC} {ls : List Line} (h : CRec l rows ls) (rest : List Line) : rowsC l (ls ++ rest) = .ok (rows, rest) := by
  obtain ⟨c, dof, h1, h2, h3, h4⟩ := h
  unfold rowsC
  rw [getList_rec h1]
  simp only [bind, Except.bind]
  have h5 : ∃ v, nth (dof ++ rows.flatMap fun r => [r.e, r.d, r.gx, r.gn0, r.gg, r.gf]) 5 = .ok v := by
    have := nth_mid [] dof (rows.flatMap fun r => [r.e, r.d, r.gx, r.gn0, r.gg, r.gf]) 5 (dof[5]'(by omega)) (by simp)
    exact ⟨_, by simpa using this⟩
  obtain ⟨v, h5⟩ := h5
  have := flatMap_pieces (row := rowC l c.c1) 6 (xs := rows) (fun r => [r.e, r.d, r.gx, r.gn0, r.gg, r.gf])
    (fun r hr => ⟨rfl, fun pre post i hp => rowC_spec (h4 r hr).1 (h4 r hr).2 pre post i hp⟩) dof [] 1 (by omega)
  rw [List.append_nil] at this
  rw [h5, h3, Int.toNat_natCast, this]
  rfl

theorem blockC_spec {rows : List RowC} {ls : List Line} (h : CBlock rows ls) (rest : List Line) : blockC (ls ++ rest) = .ok (rows, rest) := by
  obtain ⟨l, c, rss, lss, rfl, h1, h2, h3, rfl⟩ := h
  unfold blockC
  rw [List.cons_append, getCont_line h1]
  simp only [bind, Except.bind]
  rw [many_of h2 (h3.imp fun a b hh rest => rowsC_spec hh rest)]
  rfl

/-- C146, with parameters that all depend on energy (case C): all rows of all l, J and energies, in order. -/
theorem C146_energies_partial (fission : Bool) (items : Cont) (hf : items.l2 = 2) (r : Unr) (ls rest : List Line) (h : UnrC items r ls) :
    readUnr fission items (ls ++ rest) = .ok (.unr r, rest) := by
  obtain ⟨t, ape, l, c, rss, bls, rfl, h1, h2, h3, h4, h5, h6, h7⟩ := h
  unfold readUnr
  rw [List.append_assoc, readRadius_spec h1]
  simp only [bind, Except.bind, List.cons_append]
  rw [if_neg (by simp [hf]), getCont_line h2]
  simp only
  rw [if_neg (by simp [hf]), if_pos hf, many_of h3 (h5.imp fun a b hh rest => blockC_spec hh rest)]
  simp only [pure, Except.pure]
  have hr := unrHead_radius h4
  have hb := unrHead_background h4
  obtain ⟨a1, a2, a3, a4, a5⟩ := h4
  obtain ⟨spin, emin, emax, sc, en, par, bg⟩ := r
  simp only at a1 a2 a3 h6 h7 hr hb
  rw [hr, hb, ← a1, ← a2, ← a3, h6, h7]

theorem rowB_spec {ne : Nat} {l : Int} {p : ParB} {ls : List Line} (h : BRec ne l p ls) (rest : List Line) :
    rowB l (ls ++ rest) = .ok ((⟨p.l, p.j, p.d, p.amun, p.gn0, p.gg, p.gf⟩, ne), rest) := by
  obtain ⟨c, x, h1, rfl, h3⟩ := h
  unfold rowB
  rw [getList_rec h1]
  subst h3
  rfl

theorem blockB_spec {ne : Nat} {ps : List ParB} {ls : List Line} (h : BBlock ne ps ls) (rest : List Line) :
    blockB (ls ++ rest) = .ok (ps.map fun p => (⟨p.l, p.j, p.d, p.amun, p.gn0, p.gg, p.gf⟩, ne), rest) := by
  obtain ⟨l, c, lss, rfl, h1, h2, h3⟩ := h
  unfold blockB
  rw [List.cons_append, getCont_line h1]
  simp only [bind, Except.bind]
  refine many_of (by simpa using h2) ?_ rest
  rw [List.forall₂_map_left_iff]
  exact h3.imp fun a b hh rest => rowB_spec hh rest

theorem spreadAll_spec (n : Nat) (rs : List RowB) (tables : List (List RowB)) (hn : tables.length = n) :
    spreadAll tables (rs.map fun r => (r, n)) = .ok (tables.map (· ++ rs)) := by
  induction rs generalizing tables with
  | nil => simp [spreadAll]
  | cons r rs ih =>
    have e : tables.mapIdx (fun k t => if k < n then t ++ [r] else t) = tables.map (· ++ [r]) := by
      apply List.ext_getElem (by simp)
      intro i h1 h2
      simp only [List.getElem_mapIdx, List.getElem_map]
      rw [if_pos (by simpa [hn] using h1)]
    rw [List.map_cons, spreadAll, spreadB, if_neg (by omega)]
    simp only [bind, Except.bind]
    rw [e, ih _ (by simpa using hn)]
    simp [List.map_map, Function.comp_def]

/-- C146 for fission widths that depend on energy (case B), what comes out: a table for each energy, with the parameters of all l and J in order, but in the column of
the fission width it is the list of the widths at all energies. What is missing: the width at the energy of the table. -/
theorem C146_fission_partial (items : Cont) (hf : items.l2 = 1) (r : Unr) (es : List ℚ) (ps : List ParB) (ls rest : List Line) (h : UnrB items r es ps ls) :
    readUnr true items (ls ++ rest) =
      .ok (.unr { r with par := .b (es.map fun _ => ps.map fun p => ⟨p.l, p.j, p.d, p.amun, p.gn0, p.gg, p.gf⟩) }, rest) := by
  obtain ⟨t, ape, c, e, pss, bls, rfl, h1, h2, h3, h4, h5, h6, rfl⟩ := h
  unfold readUnr
  rw [List.append_assoc, readRadius_spec h1]
  simp only [bind, Except.bind]
  rw [if_pos ⟨trivial, hf⟩, List.append_assoc, getList_rec h2]
  simp only
  have hB : List.Forall₂ (fun a ls => ∀ rest, blockB (ls ++ rest) = .ok (a, rest))
      (pss.map fun ps => ps.map fun p => ((⟨p.l, p.j, p.d, p.amun, p.gn0, p.gg, p.gf⟩ : RowB), es.length)) bls := by
    rw [List.forall₂_map_left_iff]
    exact h5.imp fun a b hh rest => blockB_spec hh rest
  rw [many_of (by simpa using h3) hB]
  simp only
  have e1 : (pss.map fun ps => ps.map fun p => ((⟨p.l, p.j, p.d, p.amun, p.gn0, p.gg, p.gf⟩ : RowB), es.length)).flatten =
      (pss.flatten.map fun p => (⟨p.l, p.j, p.d, p.amun, p.gn0, p.gg, p.gf⟩ : RowB)).map fun r => (r, es.length) := by
    rw [List.map_map, List.map_flatten]
    rfl
  rw [e1, spreadAll_spec _ _ _ (by simp)]
  simp only [pure, Except.pure]
  have hr := unrHead_radius h4
  have hb := unrHead_background h4
  obtain ⟨a1, a2, a3, a4, a5⟩ := h4
  obtain ⟨spin, emin, emax, sc, en, par, bg⟩ := r
  simp only at a1 a2 a3 h6 hr hb ⊢
  rw [hr, hb, ← a1, ← a2, ← a3, h6]
  simp

/-- **C146 is false** for fission widths that depend on energy: with two energies or more and any parameters, no entry of the column of fission widths is the width at
the energy of the table. -/
theorem C146_fission_refuted (items : Cont) (hf : items.l2 = 1) (r : Unr) (es : List ℚ) (ps : List ParB) (ls rest : List Line) (h : UnrB items r es ps ls)
    (h2 : 2 ≤ es.length) (hp : ps ≠ []) :
    ∃ (r' : Unr) (tables : List (List RowB)), readUnr true items (ls ++ rest) = .ok (.unr r', rest) ∧ r'.par = .b tables ∧ tables.length = es.length ∧
      ∀ t ∈ tables, t ≠ [] ∧ ∀ row ∈ t, ∀ g, row.gf ≠ [g] := by
  refine ⟨_, _, C146_fission_partial items hf r es ps ls rest h, rfl, by simp, ?_⟩
  have hlen : ∀ p ∈ ps, p.gf.length = es.length := by
    obtain ⟨_, _, _, _, pss, bls, _, _, _, _, _, h5, _, rfl⟩ := h
    intro p hp
    obtain ⟨q, hq, hpq⟩ := List.mem_flatten.mp hp
    obtain ⟨_, _, ⟨_, _, lss, _, _, _, h3⟩⟩ := exists_of_forall₂ h5 hq
    obtain ⟨_, _, _, _, _, _, h⟩ := exists_of_forall₂ h3 hpq
    exact h
  intro t ht
  rw [List.mem_map] at ht
  obtain ⟨_, _, rfl⟩ := ht
  refine ⟨by simpa using hp, fun row hrow g hg => ?_⟩
  rw [List.mem_map] at hrow
  obtain ⟨p, hp, rfl⟩ := hrow
  have := hlen p hp
  simp only at hg
  rw [hg] at this
  simp at this
  omega

/-! ### R-matrix limited -/

theorem trunc_int (z : Int) : trunc (z : ℚ) = z := by
  apply trunc_spec
  rcases le_or_gt 0 z with h | h
  · exact Or.inl ⟨by exact_mod_cast h, by simp⟩
  · exact Or.inr ⟨by exact_mod_cast h, by simp⟩

theorem pairOf_spec (p : Pair) (pre post : List ℚ) (i : Nat) (hp : pre.length = 12 * i) : pairOf (pre ++ pairValues p ++ post) i = .ok p := by
  unfold pairOf pairValues
  rw [nth_at0 hp rfl, nth_at hp (k := 1) rfl, nth_at hp (k := 2) rfl, nth_at hp (k := 3) rfl, nth_at hp (k := 4) rfl, nth_at hp (k := 5) rfl,
    nth_at hp (k := 6) rfl, nth_at hp (k := 7) rfl, nth_at hp (k := 8) rfl, nth_at hp (k := 9) rfl, nth_at hp (k := 10) rfl, nth_at hp (k := 11) rfl]
  simp only [bind, Except.bind, pure, Except.pure, trunc_int]

theorem channelOf_spec {pairs : List Pair} {c : Channel} {vs : List ℚ} (h : ChannelValues pairs c vs) (pre post : List ℚ) (i : Nat) (hp : pre.length = 6 * i) :
    channelOf pairs (pre ++ vs ++ post) i = .ok c := by
  obtain ⟨k, h1, rfl⟩ := h
  unfold channelOf
  rw [nth_at0 hp rfl, nth_at hp (k := 1) rfl, nth_at hp (k := 2) rfl, nth_at hp (k := 3) rfl, nth_at hp (k := 4) rfl, nth_at hp (k := 5) rfl]
  have : pairAt pairs (trunc ((k + 1 : Nat) : ℚ)) = .ok c.pair := by
    rw [trunc_nat]
    unfold pairAt
    rw [if_neg (by omega), show (((k + 1 : Nat) : Int) - 1).toNat = k by omega, h1]
  simp only [bind, Except.bind, pure, Except.pure, this]

theorem rowsFrom_nth (pre ws post : List ℚ) (f : Nat → Nat) (i : Nat) (hf : ∀ k, f (i + k) = pre.length + k) :
    rowsFrom (fun k => nth (pre ++ ws ++ post) (f k)) i ws.length = .ok ws := by
  induction ws generalizing pre i with
  | nil => rfl
  | cons w ws ih =>
    rw [List.length_cons, rowsFrom]
    have h0 : nth (pre ++ (w :: ws) ++ post) (f i) = .ok w := by
      have := hf 0
      rw [Nat.add_zero] at this
      rw [this]
      exact nth_mid pre (w :: ws) post 0 w rfl
    have := ih (pre ++ [w]) (i + 1) (fun k => by rw [Nat.add_assoc, hf]; simp; omega)
    rw [List.append_assoc pre [w] ws, List.singleton_append] at this
    simp only [bind, Except.bind, h0, this, pure, Except.pure]

theorem groupRow_spec {n : Nat} {row vs : List ℚ} (h : ResValues n row vs) (pre post : List ℚ) (i : Nat) (hp : pre.length = 6 * (n / 6 + 1) * i) :
    vs.length = 6 * (n / 6 + 1) ∧ groupRow n (n / 6 + 1) (pre ++ vs ++ post) i = .ok row := by
  obtain ⟨h1, pad, rfl, h3, h4⟩ := h
  refine ⟨by rw [List.length_append] at h3 ⊢; omega, ?_⟩
  obtain ⟨e, ws, rfl⟩ : ∃ e ws, row = e :: ws := by
    cases row with
    | nil => simp at h1
    | cons e ws => exact ⟨e, ws, rfl⟩
  simp only [List.length_cons, Nat.add_right_cancel_iff] at h1
  unfold groupRow
  rw [nth_at0 hp rfl]
  have := rowsFrom_nth (pre ++ [e]) ws (pad ++ post) (fun k => 6 * (n / 6 + 1) * i + k + 1) 0 (fun k => by rw [← hp]; simp; omega)
  rw [show pre ++ [e] ++ ws ++ (pad ++ post) = pre ++ ((e :: ws) ++ pad) ++ post by simp, h1] at this
  simp only [bind, Except.bind, this, pure, Except.pure]

theorem columnOf_spec {c : Channel} {col : Column} (h : ColumnOf c.pair.mt col) : columnOf c = col := by
  unfold columnOf
  generalize c.pair.mt = mt at h
  cases h with
  | elastic => rfl
  | fission => rfl
  | capture => rfl
  | other h => rw [if_neg h.1, if_neg h.2.1, if_neg h.2.2]

theorem readExtension_spec {k : Int} {ls : List Line} (h : ExtRec k ls) (rest : List Line) : readExtension k (ls ++ rest) = .ok ((), rest) := by
  cases h with
  | none => rfl
  | parameters h hn =>
    rw [readExtension, if_pos (by decide), getList_rec h]
    simp only [bind, Except.bind, pure, Except.pure, if_neg hn]
  | tables h hn h1 h2 =>
    rw [readExtension, if_pos (by decide), List.append_assoc, List.append_assoc, getList_rec h]
    simp only [bind, Except.bind, pure, Except.pure, if_pos hn]
    rw [getTab1_rec h1]
    simp only
    rw [getTab1_rec h2]

theorem readGroup_body {pairs : List Pair} {g : Group} {c : Cont} {a b : List Line} (h : GroupBody pairs g c a b) {f f' f'' : List Line} (h2 : readExtension c.l1 f = .ok ((), f'))
    (h3 : readExtension c.l2 f' = .ok ((), f'')) : readGroup pairs (a ++ (b ++ f)) = .ok (g, f'') := by
  obtain ⟨c', cvs, rvs, extra, h1, h4, h5, h6, h7, h8, h9, h10, h11, h12⟩ := h
  unfold readGroup
  rw [getList_rec h1]
  simp only [bind, Except.bind]
  have hc := rowsFrom_pieces (row := channelOf pairs) (k := 6) (xs := g.channels) (vss := cvs)
    (h5.imp fun ch vs hh => ⟨by obtain ⟨_, _, rfl⟩ := hh; rfl, fun pre post i hp => channelOf_spec hh pre post i hp⟩) [] [] 0 rfl
  rw [List.nil_append, List.append_nil] at hc
  rw [h4, Int.toNat_natCast, hc]
  simp only
  rw [getList_rec h9]
  simp only
  have hm : ((g.channels.length : Int) / 6 + 1).toNat = g.channels.length / 6 + 1 := by omega
  have hr := rowsFrom_pieces (row := groupRow g.channels.length (g.channels.length / 6 + 1)) (k := 6 * (g.channels.length / 6 + 1)) (xs := g.rows) (vss := rvs)
    (h11.imp fun row vs hh => ⟨(groupRow_spec hh [] [] 0 (by simp)).1, fun pre post i hp => (groupRow_spec hh pre post i hp).2⟩) [] extra 0 (by simp)
  rw [List.nil_append] at hr
  rw [hm, h10, Int.toNat_natCast, hr]
  have hcol : g.channels.map columnOf = g.columns := by
    clear hc hr h12 h11 h10 h9 h5 h4
    generalize g.channels = chs at h8
    generalize g.columns = cols at h8
    induction h8 with
    | nil => rfl
    | cons hh _ ih => rw [List.map_cons, columnOf_spec hh, ih]
  have hsp : spinParity c = (g.spin, g.parity) := by
    unfold spinParity
    rcases h7 with ⟨e1, e2⟩ | ⟨e1, e2, e3⟩
    · rw [if_neg e1]
      have hpos : 0 < g.spin := by
        rcases lt_or_eq_of_le h6 with hh | hh
        · exact hh
        · rw [← hh] at e2; exact absurd (by simpa using e2) e1
      cases hg : g.parity with
      | true =>
        rw [hg] at e2
        simp only [if_true] at e2
        rw [e2, abs_of_pos hpos]
        simp [hpos]
      | false =>
        rw [hg] at e2
        simp only [Bool.false_eq_true, if_false] at e2
        rw [e2, abs_neg, abs_of_pos hpos]
        have : ¬ (0 < -g.spin) := by linarith
        simp [le_of_lt hpos]
    · rw [if_pos e1, e3, e1, e2]
      cases hg : g.parity with
      | true => simp
      | false => norm_num
  rw [hcol, hsp]
  simp only [h2, h3, pure, Except.pure]

theorem readGroup_spec {pairs : List Pair} {g : Group} {ls : List Line} (h : GroupRec pairs g ls) (rest : List Line) : readGroup pairs (ls ++ rest) = .ok (g, rest) := by
  obtain ⟨c, a, b, bk, ps, rfl, h1, h2, h3⟩ := h
  rw [List.append_assoc, List.append_assoc, List.append_assoc]
  exact readGroup_body h1 (readExtension_spec h2 _) (readExtension_spec h3 rest)

/-- C147: a range of the R-matrix limited format is read as it is given: particle pairs, spin groups with spin, parity, channels with the pair they name and columns,
and all resonances with the widths of all channels; a background R-matrix and phase shifts of one channel are passed over. What is missing: groups with more than one of them
(`C147_background_refuted`). -/
theorem C147_r_matrix_partial (items : Cont) (r : Rml) (ls rest : List Line) (h : RmlRec items r ls) : readRml items (ls ++ rest) = .ok (.rml r, rest) := by
  obtain ⟨l, c, c', a, gls, rfl, h1, h2, h3, h4, h5, h6, h7, h8, h9⟩ := h
  unfold readRml
  rw [List.cons_append, getCont_line h1]
  simp only [bind, Except.bind]
  rw [List.append_assoc, getList_rec h5]
  simp only
  have hp := flatMap_pieces (row := pairOf) 12 (xs := r.pairs) pairValues (fun p _ => ⟨rfl, fun pre post i hp => pairOf_spec p pre post i hp⟩) [] [] 0 rfl
  rw [List.nil_append, List.append_nil] at hp
  rw [h6, show ((2 * (r.pairs.length : Int)) / 2).toNat = r.pairs.length by omega, hp]
  simp only
  rw [many_of h4 (h7.imp fun g ls hh rest => readGroup_spec hh rest)]
  simp only [pure, Except.pure]
  obtain ⟨emin, emax, red, form, pairs, groups⟩ := r
  simp only at h2 h3 h8 h9
  have : decide (c.l1 = 1) = red := by rw [Bool.eq_iff_iff, decide_eq_true_iff, h2]
  rw [this, ← h3, ← h8, ← h9]

/-- C147, what does not hold: of several background R-matrices, one for each channel, only the first is passed over. What follows is taken for the next group. -/
theorem C147_background_refuted {pairs : List Pair} {g : Group} {c : Cont} {a b bk more rest : List Line} (h : GroupBody pairs g c a b) (hk : 1 < c.l1) (hp : c.l2 = 0) (h1 : ExtRec 1 bk) :
    readGroup pairs (a ++ (b ++ (bk ++ (more ++ rest)))) = .ok (g, more ++ rest) := by
  refine readGroup_body h (f' := more ++ rest) ?_ (by rw [hp]; rfl)
  have e : ∀ f, readExtension c.l1 f = readExtension 1 f := fun f => by rw [readExtension, readExtension, if_pos (by omega), if_pos (by decide)]
  rw [e]
  exact readExtension_spec h1 _

/-! ### The section -/

theorem readOnly_spec (mass : ℚ) (items : Cont) {c : Cont} {l : Line} (h3 : items.n1 = 0) (hc : ContLine c l) (rest : List Line) :
    readOnly mass items (l :: rest) = .ok (.radius ⟨c.c1, items.c1, items.c2, [(0, .fromMass mass)], [(0, .const c.c2)]⟩, rest) := by
  unfold readOnly
  simp only [h3, bind, Except.bind]
  rw [getCont_line hc]
  simp [pure, Except.pure]

theorem readRange_spec {mass : ℚ} {lfw : Bool} {r : Range} {ls : List Line} (h : RangeRec mass lfw r ls) (rest : List Line) :
    readRange mass lfw (ls ++ rest) = .ok (some r, rest) := by
  obtain ⟨l, items, body, rfl, h1, h2⟩ := h
  unfold readRange
  rw [List.cons_append, getCont_line h1]
  simp only [bind, Except.bind]
  cases h2 with
  | radius a1 a2 a3 hc =>
    rw [if_pos (by simp [a1])]
    simp only [readResolved, a2, if_true, List.cons_append, List.nil_append]
    rw [readOnly_spec mass items a3 hc]
    rfl
  | slbw a1 a2 a3 h =>
    rw [if_pos (by simp [a1])]
    simp only [readResolved, a2]
    rw [if_neg (by decide), if_pos trivial, C145_breit_wigner false items _ a3 _ _ h]
    rfl
  | mlbw a1 a2 a3 h =>
    rw [if_pos (by simp [a1])]
    simp only [readResolved, a2]
    rw [if_neg (by decide), if_neg (by decide), if_pos trivial, C145_breit_wigner true items _ a3 _ _ h]
    rfl
  | rm a1 a2 h =>
    rw [if_pos (by simp [a1])]
    simp only [readResolved, a2]
    rw [if_neg (by decide), if_neg (by decide), if_neg (by decide), if_pos trivial, C145_reich_moore items _ _ _ h]
    rfl
  | rml a1 a2 h =>
    rw [if_pos (by simp [a1])]
    simp only [readResolved, a2]
    rw [if_neg (by decide), if_neg (by decide), if_neg (by decide), if_neg (by decide), if_pos trivial, C147_r_matrix_partial items _ _ _ h]
    rfl
  | unrA a1 a2 h =>
    rw [if_neg (by simp [a1]), if_pos a1, C146_constant_partial items a2 _ _ _ h]
    rfl
  | unrC a1 a2 h =>
    rw [if_neg (by simp [a1]), if_pos a1, C146_energies_partial _ items a2 _ _ _ h]
    rfl

theorem readRanges_spec {mass : ℚ} {lfw : Bool} {rs : List Range} {rls : List (List Line)} (h : List.Forall₂ (RangeRec mass lfw) rs rls)
    (acc : List Range) (rest : List Line) : readRanges mass lfw rs.length acc (rls.flatten ++ rest) = .ok (acc ++ rs, rest) := by
  induction h generalizing acc with
  | nil => simp [readRanges]
  | cons h1 _ ih =>
    rw [List.length_cons, readRanges, List.flatten_cons, List.append_assoc, readRange_spec h1]
    simp only [bind, Except.bind]
    rw [ih, List.append_assoc]
    rfl

theorem readIsotopes_spec {mass : ℚ} {isos : List (List Range)} {ils : List (List Line)} (h : List.Forall₂ (IsotopeRec mass) isos ils) (acc : List Range)
    (rest : List Line) : readIsotopes mass isos.length acc (ils.flatten ++ rest) = .ok (acc ++ isos.flatten, rest) := by
  induction h generalizing acc with
  | nil => simp [readIsotopes]
  | cons h1 _ ih =>
    obtain ⟨l, c, lfw, rls, rfl, a1, a2, a3, a4⟩ := h1
    rw [List.length_cons, readIsotopes, List.flatten_cons, List.append_assoc, List.cons_append, getCont_line a1]
    simp only [bind, Except.bind]
    have : decide (c.l2 = 1) = lfw := by rw [a2]; cases lfw <;> rfl
    rw [this, a3, Int.toNat_natCast, readRanges_spec a4]
    simp only
    rw [ih, List.append_assoc, List.flatten_cons]

/-- C148: all ranges of all isotopes of the section are read, each in its format, in order. What is missing: ranges with fission widths that depend on energy
(C146_fission_refuted), and those with an extension of the R-matrix limited format. -/
theorem C148_section_partial (mass : ℚ) (isos : List (List Range)) (ls : List Line) (h : SectionRec mass isos ls) : fromEndf mass ls = .ok isos.flatten := by
  obtain ⟨l, hd, ils, rest, rfl, h1, h2, h3⟩ := h
  unfold fromEndf
  rw [getHead_line h1]
  simp only [bind, Except.bind]
  rw [h2, Int.toNat_natCast, readIsotopes_spec h3]
  rfl

/-- C148: the unresolved range is the first of its kind, and there is none if there is none among the ranges. -/
theorem C148_unresolved (rs : List Range) :
    (unresolved rs = none ↔ ∀ r ∈ rs, ∀ u, r ≠ .unr u) ∧
      ∀ r, unresolved rs = some r ↔ ∃ pre post u, rs = pre ++ r :: post ∧ r = .unr u ∧ ∀ x ∈ pre, ∀ u, x ≠ .unr u := by
  have hu : ∀ r : Range, r.isUnr = true ↔ ∃ u, r = .unr u := by
    intro r; cases r <;> simp [Range.isUnr]
  have hu' : ∀ r : Range, r.isUnr = false ↔ ∀ u, r ≠ .unr u := by
    intro r; cases r <;> simp [Range.isUnr]
  unfold unresolved
  constructor
  · rw [List.find?_eq_none]
    simp only [Bool.not_eq_true, hu']
  · intro r
    rw [List.find?_eq_some_iff_append]
    constructor
    · rintro ⟨h1, pre, post, h2, h3⟩
      obtain ⟨u, hr⟩ := (hu r).mp h1
      exact ⟨pre, post, u, h2, hr, fun x hx => (hu' x).mp (by simpa using h3 x hx)⟩
    · rintro ⟨pre, post, u, h2, hr, h3⟩
      exact ⟨(hu r).mpr ⟨u, hr⟩, pre, post, h2, fun x hx => by simpa using (hu' x).mpr (h3 x hx)⟩

/-- C148: the resolved range is the only one that is not unresolved, if there is one; with more than one the property is a ValueError. -/
theorem C148_resolved (rs : List Range) :
    (resolved rs = .ok none ↔ ∀ r ∈ rs, ∃ u, r = .unr u) ∧
      (∀ r, resolved rs = .ok (some r) ↔ ∃ pre post, rs = pre ++ r :: post ∧ (∀ u, r ≠ .unr u) ∧ ∀ x ∈ pre ++ post, ∃ u, x = .unr u) ∧
      (∀ pre a mid b post, rs = pre ++ a :: mid ++ b :: post → (∀ u, a ≠ .unr u) → (∀ u, b ≠ .unr u) → resolved rs = .error .valueError) := by
  have hu : ∀ r : Range, (!r.isUnr) = false ↔ ∃ u, r = .unr u := by
    intro r; cases r <;> simp [Range.isUnr]
  have hu' : ∀ r : Range, (!r.isUnr) = true ↔ ∀ u, r ≠ .unr u := by
    intro r; cases r <;> simp [Range.isUnr]
  unfold resolved
  refine ⟨?_, ?_, ?_⟩
  · constructor
    · intro h r hr
      split at h
      · next e =>
        rw [List.filter_eq_nil_iff] at e
        exact (hu r).mp (by simpa using e r hr)
      · simp at h
      · simp at h
    · intro h
      rw [List.filter_eq_nil_iff.mpr fun r hr => by simpa using (hu r).mpr (h r hr)]
  · intro r
    constructor
    · intro h
      split at h
      · simp at h
      · next x e =>
        simp only [Except.ok.injEq, Option.some.injEq] at h
        subst h
        rw [List.filter_eq_cons_iff] at e
        obtain ⟨pre, post, e1, e2, e3, e4⟩ := e
        rw [List.filter_eq_nil_iff] at e4
        refine ⟨pre, post, e1, (hu' x).mp e3, fun y hy => (hu y).mp ?_⟩
        rcases List.mem_append.mp hy with hy | hy
        · simpa using e2 y hy
        · simpa using e4 y hy
      · simp at h
    · rintro ⟨pre, post, rfl, h1, h2⟩
      rw [List.filter_append, List.filter_cons_of_pos (p := fun r : Range => !r.isUnr) ((hu' r).mpr h1),
        List.filter_eq_nil_iff.mpr fun y hy => by simpa using (hu y).mpr (h2 y (by simp [hy])),
        List.filter_eq_nil_iff.mpr fun y hy => by simpa using (hu y).mpr (h2 y (by simp [hy]))]
      rfl
  · rintro pre a mid b post rfl ha hb
    have : ∃ x y zs, (pre ++ a :: mid ++ b :: post).filter (fun r => !r.isUnr) = x :: y :: zs := by
      rw [List.filter_append, List.filter_append, List.filter_cons_of_pos (p := fun r : Range => !r.isUnr) ((hu' a).mpr ha), List.filter_cons_of_pos (p := fun r : Range => !r.isUnr) ((hu' b).mpr hb)]
      generalize List.filter _ pre = p
      generalize List.filter _ mid = m
      cases p with
      | nil => cases m with
        | nil => exact ⟨_, _, _, rfl⟩
        | cons => exact ⟨_, _, _, rfl⟩
      | cons p1 ps => cases ps with
        | nil => exact ⟨_, _, _, rfl⟩
        | cons => exact ⟨_, _, _, rfl⟩
    obtain ⟨x, y, zs, e⟩ := this
    rw [e]

/-- **C148 is false** for a range with a flag other than 0, 1 and 2: the range before it is appended again in its place. -/
theorem C148_flag_refuted (mass : ℚ) (lh li l : Line) (h : Head) (c items : Cont) (r : Range) (ls rest : List Line) (h1 : HeadLine h lh) (h2 : h.n1 = 1)
    (h3 : ContLine c li) (h4 : c.l2 = 0) (h5 : c.n1 = 2) (h6 : RangeRec mass false r ls) (h7 : ContLine items l)
    (h8 : items.l1 ≠ 0 ∧ items.l1 ≠ 1 ∧ items.l1 ≠ 2) : fromEndf mass (lh :: li :: (ls ++ l :: rest)) = .ok [r, r] := by
  have hbad : readRange mass false (l :: rest) = .ok (none, rest) := by
    simp only [readRange, getCont_line h7, bind, Except.bind]
    rw [if_neg (by simp [h8.1, h8.2.1]), if_neg h8.2.2]
    rfl
  simp only [fromEndf, getHead_line h1, bind, Except.bind, h2, Int.toNat_one, readIsotopes, getCont_line h3, h5, h4, Int.reduceToNat, readRanges, zero_ne_one,
    decide_false, readRange_spec h6, hbad]
  simp [pure, Except.pure]

end ASAPy.Res
