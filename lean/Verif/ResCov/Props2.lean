import Verif.ResCov.Props

/-!
# Properties of covariances of resonance parameters: the compact and the compatible format (C150, C151)
-/

namespace ASAPy.ResCov
open ASAPy.Endf ASAPy.Res ASAPy.Decay

/-! ### LCOMP = 2 -/

/-- The uncertainties of all resonances from a list cut into pieces of 12. -/
theorem units_spec {α : Type} (unc : List ℚ → List ℚ) (xs : List α) (v : α → List ℚ) (u : α → List ℚ)
    (h : ∀ x ∈ xs, (v x).length = 12 ∧ unc (((v x).drop 6).take 6) = u x) (pre post : List ℚ) (i : Nat) (hp : pre.length = 12 * i) :
    ((List.range' i xs.length).flatMap fun i => unc (((pre ++ xs.flatMap v ++ post).drop (12 * i + 6)).take 6)) = xs.flatMap u := by
  induction xs generalizing pre i with
  | nil => rfl
  | cons x xs ih =>
    obtain ⟨h1, h2⟩ := h x (by simp)
    simp only [List.length_cons, List.range'_succ, List.flatMap_cons]
    congr 1
    · rw [← h2]
      congr 1
      rw [List.append_assoc, List.append_assoc, List.drop_append, List.drop_eq_nil_of_le (by omega), List.nil_append,
        show 12 * i + 6 - pre.length = 6 by omega, List.drop_append_of_le_length (by omega), List.take_append_of_le_length (by simp [h1])]
    · have := ih (fun y hy => h y (by simp [hy])) (pre ++ v x) (i + 1) (by rw [List.length_append, hp, h1]; ring)
      rw [show pre ++ (v x ++ xs.flatMap v) ++ post = pre ++ v x ++ xs.flatMap v ++ post by simp]
      exact this

/-- One resonance of the compact format: its six numbers, six uncertainties, and those that take part. -/
def OneOk {ρ : Type} (fmt : Fmt ρ) (six : ρ → List ℚ) (one : ρ → List ℚ → List ℚ → Prop) : Prop :=
  ∀ r vs u, one r vs u → vs.length = 12 ∧ fmt.unc ((vs.drop 6).take 6) = u ∧ ∃ t, vs = six r ++ t

theorem bw_one : OneOk bwFmt sixBw CompactBw := by
  intro r vs u h
  cases h with
  | three de dn dg =>
    refine ⟨rfl, ?_, [de, 0, 0, dn, dg, 0], rfl⟩
    simp [bwFmt, bwUnc, List.zipIdx]
  | four de dn dg df h =>
    refine ⟨rfl, ?_, [de, 0, 0, dn, dg, df], rfl⟩
    simp [bwFmt, bwUnc, List.zipIdx, h]

theorem rm_one : OneOk rmFmt sixRm CompactRm := by
  intro r vs u h
  cases h with
  | three de dn dg h1 h2 h3 => exact ⟨rfl, by simp [rmFmt, rmUnc, h1, h2, h3], [de, 0, dn, dg, 0, 0], rfl⟩
  | four de dn dg da h1 h2 h3 h4 => exact ⟨rfl, by simp [rmFmt, rmUnc, h1, h2, h3, h4], [de, 0, dn, dg, da, 0], rfl⟩
  | five de dn dg da db h1 h2 h3 h4 h5 => exact ⟨rfl, by simp [rmFmt, rmUnc, h1, h2, h3, h4, h5], [de, 0, dn, dg, da, db], rfl⟩

/-- The matrix from uncertainties and correlations. -/
def compactCov {n : Nat} (u : List ℚ) (corr : Mat n) : Cov :=
  ⟨n, fun i j => if h : i < n ∧ j < n then u.getD i 0 * corr ⟨i, h.1⟩ ⟨j, h.2⟩ * u.getD j 0 else 0⟩

theorem compact_spec {ρ : Type} {fmt : Fmt ρ} {six : ρ → List ℚ} (ok : FmtOk fmt six) {one : ρ → List ℚ → List ℚ → Prop} (h1 : OneOk fmt six one) {items : Cont}
    {rows par : List ρ} {us : List (List ℚ)} {n : Nat} {nls : Int} {a b i rest : List Line} {res : Range} (hr : fmt.ofRange res = some par) (hb : Begin items 2 nls a)
    (hc : Compact one rows us b) (hm : us.flatten.length = n) (corr : Mat n) (hi : getIntg (i ++ rest) = .ok ⟨n, corr, rest⟩)
    (hne : rows ≠ []) (hp : (rows.map fmt.energy).Perm (par.map fmt.energy))
    (ha : ∀ r ∈ rows, ∀ p ∈ par, fmt.energy r = fmt.energy p → fmt.add (ok.base r) p = r) :
    ∃ r, readCov fmt items res (a ++ (b ++ (i ++ rest))) = .ok (r, rest) ∧ Made items 2 res rows par (n / rows.length) r ∧ r.cov = compactCov us.flatten corr ∧ r.cov.n = n ∧
      ∀ p q : Fin n, ∃ x y, us.flatten[p.val]? = some x ∧ us.flatten[q.val]? = some y ∧ r.cov.val p q = x * corr p q * y := by
  obtain ⟨c, e1, e2, e3⟩ := begin_read fmt hb res (b ++ (i ++ rest))
  rw [e3]
  obtain ⟨c1, xs, g1, g2, rfl, g4⟩ := hc
  have hlen : rows.length = xs.length := g4.length_eq
  have hxs : ∀ x ∈ xs, x.1.length = 12 ∧ fmt.unc ((x.1.drop 6).take 6) = x.2 := by
    intro x hx
    obtain ⟨r, hr, h⟩ := exists_of_forall₂ g4.flip hx
    exact ⟨(h1 _ _ _ h).1, (h1 _ _ _ h).2.1⟩
  have hunc := units_spec fmt.unc xs (·.1) (·.2) hxs [] [] 0 rfl
  rw [List.nil_append, List.append_nil, ← List.range_eq_range', ← hlen] at hunc
  have hrows : rowsFrom (rowAt fmt 12 (xs.flatMap (·.1))) 0 (strided 12 (xs.flatMap (·.1))) = .ok (rows.map ok.base) := by
    rw [strided_len 12 (by omega) _ xs.length (flatMap_len xs (·.1) 12 fun x hx => (hxs x hx).1)]
    have := rowsFrom_pieces (row := rowAt fmt 12) (k := 12) (xs := rows.map ok.base) (vss := xs.map (·.1))
      (by
        rw [List.forall₂_map_left_iff, List.forall₂_map_right_iff]
        refine g4.imp fun r x h => ?_
        obtain ⟨t1, _, t, t3⟩ := h1 _ _ _ h
        refine ⟨t1, fun pre post i hp => ?_⟩
        rw [t3]
        exact rowAt_spec ok 12 r pre t post i hp) [] [] 0 rfl
    rw [List.nil_append, List.append_nil, List.length_map, ← List.flatMap_def, hlen] at this
    exact this
  have hul : (xs.flatMap (·.2)).length = n := by
    rw [List.flatMap_def]
    exact hm
  have hcomp : readCompact fmt (b ++ (i ++ rest)) = .ok ((rows.map ok.base, some ⟨n, fun i j =>
      if h' : i < n ∧ j < n then (xs.flatMap (·.2)).getD i 0 * corr ⟨i, h'.1⟩ ⟨j, h'.2⟩ * (xs.flatMap (·.2)).getD j 0 else 0⟩), rest) := by
    unfold readCompact
    rw [getList_rec g1]
    simp only [bind, Except.bind]
    rw [g2, Int.toNat_natCast, hunc, hrows]
    simp only
    rw [hi]
    simp only
    rw [if_pos hul]
    rfl
  rw [if_neg (by rw [e1]; decide), if_pos e1, hcomp]
  simp only [bind, Except.bind]
  rw [if_neg (by simpa using hne), hr]
  simp only
  rw [addFile2_spec fmt ok.base ok.energy hp ha]
  simp only [pure, Except.pure, List.length_map]
  refine ⟨_, rfl, ⟨rfl, rfl, rfl, rfl, e1, rfl, rfl⟩, rfl, rfl, fun p q => ?_⟩
  have hp' : p.val < (xs.flatMap (·.2)).length := by rw [hul]; exact p.2
  have hq' : q.val < (xs.flatMap (·.2)).length := by rw [hul]; exact q.2
  refine ⟨(xs.flatMap (·.2))[p.val], (xs.flatMap (·.2))[q.val], ?_, ?_, ?_⟩
  · rw [← List.flatMap_def, List.getElem?_eq_getElem hp']
  · rw [← List.flatMap_def, List.getElem?_eq_getElem hq']
  · simp only
    rw [dif_pos ⟨p.2, q.2⟩, List.getD_eq_getElem?_getD, List.getD_eq_getElem?_getD, List.getElem?_eq_getElem hp', List.getElem?_eq_getElem hq']
    rfl

theorem compact_len {ρ : Type} {one : ρ → List ℚ → List ℚ → Prop} {rows : List ρ} {us : List (List ℚ)} {b : List Line} (hc : Compact one rows us b) (mpar : Nat)
    (hm : ∀ u ∈ us, u.length = mpar) : us.flatten.length = mpar * rows.length := by
  obtain ⟨_, xs, _, _, rfl, g4⟩ := hc
  rw [g4.length_eq, ← List.flatMap_def]
  exact flatMap_len xs (·.2) mpar fun x hx => hm _ (List.mem_map_of_mem hx)

/-- C150, Breit-Wigner ranges with LCOMP = 2: the resonances are those of file 32, and the covariance of two parameters is the product of their uncertainties and the
correlation that is read (`C73` says which one that is), if each resonance has uncertainties of the same number of parameters. -/
theorem C150_breit_wigner_partial (items : Cont) (b : Bw) (rows : List BwRow) (us : List (List ℚ)) (mpar : Nat) (nls : Int) (ls ls' i rest : List Line)
    (h1 : Begin items 2 nls ls) (h2 : Compact CompactBw rows us ls') (hm : ∀ u ∈ us, u.length = mpar) (corr : Mat (mpar * rows.length))
    (hi : getIntg (i ++ rest) = .ok ⟨mpar * rows.length, corr, rest⟩) (hne : rows ≠ []) (h3 : FromFile2Bw rows b.rows) :
    ∃ r, readCov bwFmt items (.bw b) (ls ++ (ls' ++ (i ++ rest))) = .ok (r, rest) ∧ r.emin = items.c1 ∧ r.emax = items.c2 ∧ r.rows = rows ∧ r.mpar = mpar ∧ r.lcomp = 2 ∧
      r.file2 = .bw b ∧ r.par2 = (List.range b.rows.length).zip b.rows ∧ r.cov.n = mpar * rows.length ∧
      ∀ p q : Fin (mpar * rows.length), ∃ x y, us.flatten[p.val]? = some x ∧ us.flatten[q.val]? = some y ∧ r.cov.val p q = x * corr p q * y := by
  obtain ⟨r, e, ⟨m1, m2, m3, m4, m5, m6, m7⟩, _, m8⟩ :=
    compact_spec bwOk bw_one (res := .bw b) (par := b.rows) rfl h1 h2 (compact_len h2 mpar hm) corr hi hne h3.2.1 (bw_add h3)
  exact ⟨r, e, m1, m2, m3, by rw [m4, Nat.mul_div_cancel _ (List.length_pos_iff.mpr hne)], m5, m6, m7, m8⟩

/-- C150, the same for Reich-Moore ranges. -/
theorem C150_reich_moore_partial (items : Cont) (b : Rm) (rows : List RmRow) (us : List (List ℚ)) (mpar : Nat) (nls : Int) (ls ls' i rest : List Line)
    (h1 : Begin items 2 nls ls) (h2 : Compact CompactRm rows us ls') (hm : ∀ u ∈ us, u.length = mpar) (corr : Mat (mpar * rows.length))
    (hi : getIntg (i ++ rest) = .ok ⟨mpar * rows.length, corr, rest⟩) (hne : rows ≠ []) (h3 : FromFile2Rm rows b.rows) :
    ∃ r, readCov rmFmt items (.rm b) (ls ++ (ls' ++ (i ++ rest))) = .ok (r, rest) ∧ r.emin = items.c1 ∧ r.emax = items.c2 ∧ r.rows = rows ∧ r.mpar = mpar ∧ r.lcomp = 2 ∧
      r.file2 = .rm b ∧ r.par2 = (List.range b.rows.length).zip b.rows ∧ r.cov.n = mpar * rows.length ∧
      ∀ p q : Fin (mpar * rows.length), ∃ x y, us.flatten[p.val]? = some x ∧ us.flatten[q.val]? = some y ∧ r.cov.val p q = x * corr p q * y := by
  obtain ⟨r, e, ⟨m1, m2, m3, m4, m5, m6, m7⟩, _, m8⟩ :=
    compact_spec rmOk rm_one (res := .rm b) (par := b.rows) rfl h1 h2 (compact_len h2 mpar hm) corr hi hne h3.2.1 (rm_add h3)
  exact ⟨r, e, m1, m2, m3, by rw [m4, Nat.mul_div_cancel _ (List.length_pos_iff.mpr hne)], m5, m6, m7, m8⟩

/-- **C150 is false** where the resonances do not all have the same number of parameters that take part (three and four, say, where only one of them has an uncertainty of
its fission width): reading succeeds, but the number of parameters of a resonance is not that of any one of them, or not that of all, and the mean that `sample` makes
of it does not have the size of the matrix: a ValueError, unless the total number is a multiple of the number of resonances. -/
theorem C150_uneven_refuted (items : Cont) (b : Bw) (rows : List BwRow) (us : List (List ℚ)) (n : Nat) (nls : Int) (ls ls' i rest : List Line)
    (h1 : Begin items 2 nls ls) (h2 : Compact CompactBw rows us ls') (hm : us.flatten.length = n) (corr : Mat n)
    (hi : getIntg (i ++ rest) = .ok ⟨n, corr, rest⟩) (hne : rows ≠ []) (h3 : FromFile2Bw rows b.rows) (hn : ¬ rows.length ∣ n) :
    ∃ r, readCov bwFmt items (.bw b) (ls ++ (ls' ++ (i ++ rest))) = .ok (r, rest) ∧ sampleCall bwFmt r = .error .valueError := by
  obtain ⟨r, e, ⟨m1, m2, m3, m4, m5, m6, m7⟩, _, m8, _⟩ :=
    compact_spec bwOk bw_one (res := .bw b) (par := b.rows) rfl h1 h2 hm corr hi hne h3.2.1 (bw_add h3)
  refine ⟨r, e, ?_⟩
  unfold sampleCall
  simp only
  rw [if_neg]
  rw [m8, m3, flatMap_len rows (fun x => (bwFmt.five x).take r.mpar) (min r.mpar 5) (fun x _ => by rw [List.length_take]; rfl)]
  rintro rfl
  exact hn (Dvd.intro_left _ rfl)

/-! ### LCOMP = 0 -/

/-- The matrix after a resonance. -/
def putVars (m : Nat → Nat → ℚ) (k : Nat) (v : Vars) : Nat → Nat → ℚ := fun a b =>
  if a = k + 3 ∧ b = k + 3 then v.ff else if a = k + 2 ∧ b = k + 3 then v.gf else if a = k + 2 ∧ b = k + 2 then v.gg
  else if a = k + 1 ∧ b = k + 3 then v.nf else if a = k + 1 ∧ b = k + 1 then v.nn else if a = k ∧ b = k then v.ee else m a b

theorem setCompat_spec (m : Cov) (k : Nat) (hn : k + 4 ≤ m.n) (v : Vars) (t : List ℚ) :
    setCompat m k ([v.ee, v.nn, v.ng, v.gg, v.nf, v.gf, v.ff] ++ t) = .ok ⟨m.n, putVars m.val k v⟩ := by
  unfold setCompat
  have n0 : nth ([v.ee, v.nn, v.ng, v.gg, v.nf, v.gf, v.ff] ++ t) 0 = .ok v.ee := rfl
  have n1 : nth ([v.ee, v.nn, v.ng, v.gg, v.nf, v.gf, v.ff] ++ t) 1 = .ok v.nn := rfl
  have n3 : nth ([v.ee, v.nn, v.ng, v.gg, v.nf, v.gf, v.ff] ++ t) 3 = .ok v.gg := rfl
  have n4 : nth ([v.ee, v.nn, v.ng, v.gg, v.nf, v.gf, v.ff] ++ t) 4 = .ok v.nf := rfl
  have n5 : nth ([v.ee, v.nn, v.ng, v.gg, v.nf, v.gf, v.ff] ++ t) 5 = .ok v.gf := rfl
  have n6 : nth ([v.ee, v.nn, v.ng, v.gg, v.nf, v.gf, v.ff] ++ t) 6 = .ok v.ff := rfl
  simp only [bind, Except.bind, n0, n1, n3, n4, n5, n6, Cov.set]
  rw [if_pos ⟨by omega, by omega⟩]
  simp only
  rw [if_pos ⟨by omega, by omega⟩]
  simp only
  rw [if_pos ⟨by omega, by omega⟩]
  simp only
  rw [if_pos ⟨by omega, by omega⟩]
  simp only
  rw [if_pos ⟨by omega, by omega⟩]
  simp only
  rw [if_pos ⟨by omega, by omega⟩]
  rfl

/-- What one resonance leaves in its own block. -/
theorem putVars_block (m : Nat → Nat → ℚ) (k : Nat) (v : Vars) (hz : ∀ a b, k ≤ a ∨ k ≤ b → m a b = 0) (a b : Nat) (ha : a < 4) (hb : b < 4) :
    putVars m k v (k + a) (k + b) = if a = 1 ∧ b = 2 then 0 else v.cov a b := by
  unfold putVars
  have := hz (k + a) (k + b) (Or.inl (by omega))
  rw [this]
  interval_cases a <;> interval_cases b <;> simp [Vars.cov]

theorem putVars_off (m : Nat → Nat → ℚ) (k : Nat) (v : Vars) (a b : Nat) (h : a < k ∨ b < k ∨ k + 4 ≤ a ∨ k + 4 ≤ b) : putVars m k v a b = m a b := by
  unfold putVars
  rw [if_neg (by omega), if_neg (by omega), if_neg (by omega), if_neg (by omega), if_neg (by omega), if_neg (by omega)]

/-- The entries that belong to resonances `k0`, `k0 + 1`, ... -/
def Entries (m : Nat → Nat → ℚ) (k0 : Nat) (vs : List Vars) : Prop :=
  ∀ p v, vs[p]? = some v → ∀ a b, a < 4 → b < 4 → m (4 * (k0 + p) + a) (4 * (k0 + p) + b) = if a = 1 ∧ b = 2 then 0 else v.cov a b

theorem compatRows_spec (rs : List (BwRow × Vars)) (vss : List (List ℚ)) (h : List.Forall₂ (fun (r : BwRow × Vars) vs => Compat18 r.1 r.2 vs) rs vss) :
    ∀ (pre post : List ℚ) (j k : Nat) (m : Cov), rs ≠ [] → pre.length = 18 * j → m.n = 4 * (k + 1) → (∀ a b, 4 * k ≤ a ∨ 4 * k ≤ b → m.val a b = 0) →
      ∃ m', compatRows bwFmt (pre ++ vss.flatten ++ post) rs.length j k m = .ok (rs.map (fun r => bwOk.base r.1), k + rs.length, m') ∧ m'.n = 4 * (k + rs.length) ∧
        (∀ a b, a < 4 * k → b < 4 * k → m'.val a b = m.val a b) ∧ Entries m'.val k (rs.map (·.2)) ∧
        (∀ a b, 4 * k ≤ a ∨ 4 * k ≤ b → a / 4 ≠ b / 4 → m'.val a b = 0) := by
  induction h with
  | nil => intro _ _ _ _ _ h; exact absurd rfl h
  | @cons r vs rs vss h1 hr ih =>
    intro pre post j k m _ hp hn hz
    obtain ⟨x1, x2, x3, x4, x5, rfl⟩ := h1
    set vs : List ℚ := [r.1.energy, r.1.j, r.1.gt, r.1.gn, r.1.gg, r.1.gf, r.2.ee, r.2.nn, r.2.ng, r.2.gg, r.2.nf, r.2.gf, r.2.ff, x1, x2, x3, x4, x5] with hvs
    have hone : ((pre ++ (vs :: vss).flatten ++ post).drop (18 * j)).take 18 = vs := by
      rw [List.append_assoc, ← hp, List.drop_left, List.flatten_cons, List.append_assoc]
      exact List.take_left' rfl
    have hrow : rowAt bwFmt 6 vs 0 = .ok (bwOk.base r.1) := by
      have := rowAt_spec bwOk 6 r.1 [] [r.2.ee, r.2.nn, r.2.ng, r.2.gg, r.2.nf, r.2.gf, r.2.ff, x1, x2, x3, x4, x5] [] 0 rfl
      rw [List.nil_append, List.append_nil] at this
      exact this
    have hset : setCompat m (4 * k) (vs.drop 6) = .ok ⟨m.n, putVars m.val (4 * k) r.2⟩ :=
      setCompat_spec m (4 * k) (by omega) r.2 [x1, x2, x3, x4, x5]
    have hblock : ∀ a b, a < 4 → b < 4 → putVars m.val (4 * k) r.2 (4 * k + a) (4 * k + b) = if a = 1 ∧ b = 2 then 0 else r.2.cov a b :=
      fun a b => putVars_block m.val (4 * k) r.2 hz a b
    rw [List.length_cons, compatRows]
    simp only [bind, Except.bind]
    rw [hone, hrow]
    simp only
    rw [hset]
    simp only
    by_cases hrs : rs = []
    · subst hrs
      cases hr
      simp only [List.length_nil, if_true, compatRows, pure, Except.pure, List.map_cons, List.map_nil]
      refine ⟨_, rfl, by omega, ?_, ?_, ?_⟩
      · intro a b ha hb
        exact putVars_off _ _ _ _ _ (Or.inl ha)
      · intro p v hv a b ha hb
        cases p with
        | zero =>
          simp only [List.getElem?_cons_zero, Option.some.injEq] at hv
          subst hv
          simpa using hblock a b ha hb
        | succ p => simp at hv
      · intro a b hab hne
        rcases Classical.em (a < 4 * k ∨ b < 4 * k ∨ 4 * k + 4 ≤ a ∨ 4 * k + 4 ≤ b) with h | h
        · simp only
          rw [putVars_off _ _ _ _ _ h]
          exact hz a b hab
        · omega
    · have hl : ¬ rs.length = 0 := by simpa using hrs
      rw [if_neg hl]
      obtain ⟨m', e1, e2, e3, e4, e5⟩ := ih (pre ++ vs) post (j + 1) (k + 1) (Cov.pad ⟨m.n, putVars m.val (4 * k) r.2⟩) hrs
        (by rw [List.length_append, hp]; simp [hvs]; ring) (by simp only [Cov.pad, hn]; ring) (by
          intro a b hab
          simp only [Cov.pad]
          rw [if_neg (by omega)])
      rw [show pre ++ (vs :: vss).flatten ++ post = pre ++ vs ++ vss.flatten ++ post by simp, e1]
      simp only [pure, Except.pure]
      have hk : ∀ a b, a < 4 * (k + 1) → b < 4 * (k + 1) → m'.val a b = putVars m.val (4 * k) r.2 a b := by
        intro a b ha hb
        rw [e3 a b ha hb]
        simp only [Cov.pad]
        rw [if_pos ⟨by omega, by omega⟩]
      refine ⟨m', by rw [show k + 1 + rs.length = k + (rs.length + 1) by omega]; rfl, by rw [e2]; ring, ?_, ?_, ?_⟩
      · intro a b ha hb
        rw [hk a b (by omega) (by omega)]
        exact putVars_off _ _ _ _ _ (Or.inl ha)
      · intro p v hv a b ha hb
        cases p with
        | zero =>
          simp only [List.map_cons, List.getElem?_cons_zero, Option.some.injEq] at hv
          subst hv
          rw [hk _ _ (by omega) (by omega)]
          simpa using hblock a b ha hb
        | succ p =>
          rw [List.map_cons, List.getElem?_cons_succ] at hv
          have := e4 p v hv a b ha hb
          rw [show k + (p + 1) = k + 1 + p by omega]
          exact this
      · intro a b hab hne
        by_cases h : 4 * (k + 1) ≤ a ∨ 4 * (k + 1) ≤ b
        · exact e5 a b h hne
        · rw [hk a b (by omega) (by omega)]
          rcases Classical.em (a < 4 * k ∨ b < 4 * k ∨ 4 * k + 4 ≤ a ∨ 4 * k + 4 ≤ b) with h | h
          · rw [putVars_off _ _ _ _ _ h]
            exact hz a b hab
          · omega

/-- C151, Breit-Wigner ranges with LCOMP = 0 and one l: the resonances are those of file 32; the covariances of energy, neutron, capture and fission width of a
resonance are those of the file, but for that of neutron and capture width, which is 0; those of different resonances are 0. -/
theorem C151_compatible_partial (items : Cont) (b : Bw) (rs : List (BwRow × Vars)) (ls ls' rest : List Line) (h1 : Begin items 0 1 ls) (h2 : CompatL rs ls')
    (hne : rs ≠ []) (h3 : FromFile2Bw (rs.map (·.1)) b.rows) :
    ∃ r, readCov bwFmt items (.bw b) (ls ++ (ls' ++ rest)) = .ok (r, rest) ∧ r.emin = items.c1 ∧ r.emax = items.c2 ∧ r.rows = rs.map (·.1) ∧ r.mpar = 4 ∧ r.lcomp = 0 ∧
      r.file2 = .bw b ∧ r.par2 = (List.range b.rows.length).zip b.rows ∧ r.cov.n = 4 * rs.length ∧
      (∀ k x, rs[k]? = some x → ∀ p q, p < 4 → q < 4 → r.cov.val (4 * k + p) (4 * k + q) = if p = 1 ∧ q = 2 then 0 else x.2.cov p q) ∧
      ∀ p q, p / 4 ≠ q / 4 → r.cov.val p q = 0 := by
  obtain ⟨c, e1, e2, e3⟩ := begin_read bwFmt h1 (.bw b) (ls' ++ rest)
  rw [e3]
  obtain ⟨c1, vss, g1, g2, g3⟩ := h2
  obtain ⟨m, f1, f2, f3, f4, f5⟩ := compatRows_spec rs vss g3 [] [] 0 0 ⟨4, fun _ _ => 0⟩ hne rfl rfl (by simp)
  rw [List.nil_append, List.append_nil] at f1
  have hc : readCompat bwFmt c.n1.toNat (ls' ++ rest) = .ok ((rs.map (fun r => bwOk.base r.1), some m), rest) := by
    unfold readCompat
    rw [e2, Int.toNat_one]
    simp only [compatBlocks, bind, Except.bind]
    rw [getList_rec g1]
    simp only
    rw [g2, Int.toNat_natCast, f1]
    simp [pure, Except.pure]
  rw [if_neg (by rw [e1]; decide), if_neg (by rw [e1]; decide), if_pos ⟨e1, rfl⟩, hc]
  simp only [bind, Except.bind]
  rw [if_neg (by simpa using hne), show bwFmt.ofRange (.bw b) = some b.rows from rfl]
  simp only
  have := addFile2_spec bwFmt bwOk.base bwOk.energy h3.2.1 (bw_add h3)
  rw [List.map_map] at this
  rw [show (fun r : BwRow × Vars => bwOk.base r.1) = bwOk.base ∘ (fun x => x.1) from rfl, this]
  simp only [pure, Except.pure, List.length_map]
  have hpos : 0 < rs.length := List.length_pos_iff.mpr hne
  refine ⟨_, rfl, rfl, rfl, rfl, ?_, e1, rfl, rfl, ?_, ?_, ?_⟩
  · simp only
    rw [f2, Nat.zero_add, Nat.mul_div_cancel _ hpos]
  · simp only
    rw [f2, Nat.zero_add]
  · intro k x hk p q hp hq
    have := f4 k x.2 (by rw [List.getElem?_map, hk]; rfl) p q hp hq
    rw [Nat.zero_add] at this
    exact this
  · intro p q hpq
    exact f5 p q (by omega) hpq

/-- **C151 is false**: the covariance of neutron and capture width is 0 in the matrix, whatever the file says. -/
theorem C151_covariance_refuted (items : Cont) (b : Bw) (rs : List (BwRow × Vars)) (ls ls' rest : List Line) (h1 : Begin items 0 1 ls) (h2 : CompatL rs ls')
    (hne : rs ≠ []) (h3 : FromFile2Bw (rs.map (·.1)) b.rows) (k : Nat) (x : BwRow × Vars) (hk : rs[k]? = some x) (hx : x.2.ng ≠ 0) :
    ∃ r, readCov bwFmt items (.bw b) (ls ++ (ls' ++ rest)) = .ok (r, rest) ∧ r.cov.val (4 * k + 1) (4 * k + 2) = 0 ∧ r.cov.val (4 * k + 2) (4 * k + 1) = 0 ∧
      x.2.cov 1 2 ≠ 0 := by
  obtain ⟨r, e, _, _, _, _, _, _, _, _, h, _⟩ := C151_compatible_partial items b rs ls ls' rest h1 h2 hne h3
  exact ⟨r, e, by simpa using h k x hk 1 2 (by decide) (by decide), by simpa [Vars.cov] using h k x hk 2 1 (by decide) (by decide), by simpa [Vars.cov] using hx⟩

/-- **C151 is false** for more than one l: with resonances in the first and the second, reading ends in an IndexError. -/
theorem C151_second_refuted (items : Cont) (b : Bw) (rs rs' : List (BwRow × Vars)) (nls : Int) (hl : 2 ≤ nls) (ls ls1 ls2 rest : List Line) (h1 : Begin items 0 nls ls)
    (h2 : CompatL rs ls1) (h3 : CompatL rs' ls2) (hne : rs ≠ []) (hne' : rs' ≠ []) :
    readCov bwFmt items (.bw b) (ls ++ (ls1 ++ (ls2 ++ rest))) = .error .indexError := by
  obtain ⟨c, e1, e2, e3⟩ := begin_read bwFmt h1 (.bw b) (ls1 ++ (ls2 ++ rest))
  rw [e3]
  obtain ⟨c1, vss, g1, g2, g3⟩ := h2
  obtain ⟨c2, vss', k1, k2, k3⟩ := h3
  obtain ⟨m, f1, f2, f3, f4, f5⟩ := compatRows_spec rs vss g3 [] [] 0 0 ⟨4, fun _ _ => 0⟩ hne rfl rfl (by simp)
  rw [List.nil_append, List.append_nil] at f1
  obtain ⟨n, hn⟩ : ∃ n, nls.toNat = n + 2 := ⟨nls.toNat - 2, by omega⟩
  have hsec : compatRows bwFmt vss'.flatten rs'.length 0 (0 + rs.length) m = .error .indexError := by
    cases k3 with
    | nil => exact absurd rfl hne'
    | @cons r vs rs' vss' h1 hr =>
      obtain ⟨x1, x2, x3, x4, x5, rfl⟩ := h1
      set vs : List ℚ := [r.1.energy, r.1.j, r.1.gt, r.1.gn, r.1.gg, r.1.gf, r.2.ee, r.2.nn, r.2.ng, r.2.gg, r.2.nf, r.2.gf, r.2.ff, x1, x2, x3, x4, x5] with hvs
      have hone : ((vs :: vss').flatten.drop (18 * 0)).take 18 = vs := by
        rw [Nat.mul_zero, List.drop_zero, List.flatten_cons]
        exact List.take_left' rfl
      have hrow : rowAt bwFmt 6 vs 0 = .ok (bwOk.base r.1) := by
        have := rowAt_spec bwOk 6 r.1 [] [r.2.ee, r.2.nn, r.2.ng, r.2.gg, r.2.nf, r.2.gf, r.2.ff, x1, x2, x3, x4, x5] [] 0 rfl
        rw [List.nil_append, List.append_nil] at this
        exact this
      have hset : setCompat m (4 * (0 + rs.length)) (vs.drop 6) = .error .indexError := by
        have n0 : nth (vs.drop 6) 0 = .ok r.2.ee := rfl
        unfold setCompat
        simp only [bind, Except.bind, n0, Cov.set]
        rw [if_neg (by rw [f2]; omega)]
      rw [List.length_cons, compatRows]
      simp only [bind, Except.bind]
      rw [hone, hrow]
      simp only
      rw [hset]
  have hc : readCompat bwFmt c.n1.toNat (ls1 ++ (ls2 ++ rest)) = .error .indexError := by
    unfold readCompat
    rw [e2, hn]
    simp only [compatBlocks, bind, Except.bind]
    rw [getList_rec g1]
    simp only
    rw [g2, Int.toNat_natCast, f1]
    simp only
    rw [getList_rec k1]
    simp only
    rw [k2, Int.toNat_natCast, hsec]
  rw [if_neg (by rw [e1]; decide), if_neg (by rw [e1]; decide), if_pos ⟨e1, rfl⟩, hc]
  rfl

/-- C151 for Reich-Moore ranges: there is no branch for LCOMP = 0; reading ends in an UnboundLocalError. -/
theorem C151_reich_moore_refuted (items : Cont) (res : Range) (nls : Int) (ls rest : List Line) (h1 : Begin items 0 nls ls) :
    readCov rmFmt items res (ls ++ rest) = .error .unboundLocal := by
  obtain ⟨c, e1, e2, e3⟩ := begin_read rmFmt h1 res rest
  rw [e3, if_neg (by rw [e1]; decide), if_neg (by rw [e1]; decide), if_neg (by simp [rmFmt])]
  rfl

end ASAPy.ResCov
