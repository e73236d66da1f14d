import Verif.ResCov.Lemmas

/-!
# Properties of covariances of resonance parameters: what is read (C149-C151)
-/

namespace ASAPy.ResCov
open ASAPy.Endf ASAPy.Res ASAPy.Decay

/-! ### The two formalisms -/

/-- What the two formalisms have in common: a row is made of its six numbers, and completed by the row of file 2. -/
structure FmtOk {ρ : Type} (fmt : Fmt ρ) (six : ρ → List ℚ) where
  base : ρ → ρ
  len : ∀ r, (six r).length = 6
  row : ∀ r a b c d e f, six r = [a, b, c, d, e, f] → fmt.row a b c d e f = base r
  energy : ∀ r, fmt.energy (base r) = fmt.energy r

def bwOk : FmtOk bwFmt sixBw where
  base := fun r => { r with l := 0, gx := 0 }
  len := fun _ => rfl
  row := fun r a b c d e f h => by
    simp only [sixBw, List.cons.injEq, and_true] at h
    obtain ⟨rfl, rfl, rfl, rfl, rfl, rfl⟩ := h
    rfl
  energy := fun _ => rfl

def rmOk : FmtOk rmFmt sixRm where
  base := fun r => { r with l := 0 }
  len := fun _ => rfl
  row := fun r a b c d e f h => by
    simp only [sixRm, List.cons.injEq, and_true] at h
    obtain ⟨rfl, rfl, rfl, rfl, rfl, rfl⟩ := h
    rfl
  energy := fun _ => rfl

theorem rowAt_spec {ρ : Type} {fmt : Fmt ρ} {six : ρ → List ℚ} (ok : FmtOk fmt six) (w : Nat) (r : ρ) (pre tail post : List ℚ) (i : Nat) (hp : pre.length = w * i) :
    rowAt fmt w (pre ++ (six r ++ tail) ++ post) i = .ok (ok.base r) := by
  obtain ⟨a, b, c, d, e, f, h⟩ : ∃ a b c d e f, six r = [a, b, c, d, e, f] := by
    have := ok.len r
    match hs : six r, this with
    | [a, b, c, d, e, f], _ => exact ⟨a, b, c, d, e, f, rfl⟩
  unfold rowAt
  rw [h, nth_at0 hp rfl, nth_at hp (k := 1) rfl, nth_at hp (k := 2) rfl, nth_at hp (k := 3) rfl, nth_at hp (k := 4) rfl, nth_at hp (k := 5) rfl]
  simp only [bind, Except.bind, pure, Except.pure, ok.row r a b c d e f h]

theorem strided_len (w : Nat) (hw : 0 < w) (vs : List ℚ) (n : Nat) (h : vs.length = w * n) : strided w vs = n := by
  unfold strided
  rw [h, Nat.add_comm, Nat.add_mul_div_left _ _ hw, Nat.div_eq_of_lt (by omega), Nat.zero_add]

theorem flatMap_len {α : Type} (xs : List α) (g : α → List ℚ) (w : Nat) (h : ∀ x ∈ xs, (g x).length = w) : (xs.flatMap g).length = w * xs.length := by
  induction xs with
  | nil => simp
  | cons x xs ih =>
    rw [List.flatMap_cons, List.length_append, h x (by simp), ih (fun y hy => h y (by simp [hy])), List.length_cons]
    ring

/-- The rows of `rows.flatMap six`. -/
theorem rowsAt_spec {ρ : Type} {fmt : Fmt ρ} {six : ρ → List ℚ} (ok : FmtOk fmt six) (rows : List ρ) :
    rowsFrom (rowAt fmt 6 (rows.flatMap six)) 0 (strided 6 (rows.flatMap six)) = .ok (rows.map ok.base) := by
  rw [strided_len 6 (by omega) _ rows.length (flatMap_len rows six 6 fun r _ => ok.len r)]
  have := rowsFrom_pieces (row := rowAt fmt 6) (k := 6) (xs := rows.map ok.base) (vss := rows.map six)
    (by
      rw [List.forall₂_map_left_iff, List.forall₂_map_right_iff, List.forall₂_same]
      intro r _
      refine ⟨ok.len r, fun pre post i hp => ?_⟩
      have := rowAt_spec ok 6 r pre [] post i hp
      rwa [List.append_nil] at this) [] [] 0 rfl
  rw [List.nil_append, List.append_nil, List.length_map, ← List.flatMap_def] at this
  exact this

theorem begin_read {ρ : Type} (fmt : Fmt ρ) {items : Cont} {lcomp nls : Int} {ls : List Line} (h : Begin items lcomp nls ls) (res : Range) (rest : List Line) :
    ∃ c : Cont, c.l2 = lcomp ∧ c.n1 = nls ∧ readCov fmt items res (ls ++ rest) = (do
      let ((rows, cov), f) ←
        (if c.l2 = 1 then readGeneral fmt rest
        else if c.l2 = 2 then readCompact fmt rest
        else if c.l2 = 0 ∧ fmt.compat = true then readCompat fmt c.n1.toNat rest
        else .error .unboundLocal)
      match cov with
      | none => .error .unboundLocal
      | some m =>
        if rows.length = 0 then .error .exception
        else
          match fmt.ofRange res with
          | none => .error .keyError
          | some par => do
            let rows' ← addFile2 fmt rows par
            return (⟨items.c1, items.c2, rows', m, m.n / rows.length, c.l2, res, (List.range par.length).zip par⟩, f)) := by
  obtain ⟨t, ape, l, c, rfl, h1, h2, h3, h4⟩ := h
  refine ⟨c, h3, h4, ?_⟩
  unfold readCov
  rw [List.append_assoc, readRadius_spec h1]
  simp only [bind, Except.bind, List.cons_append, List.nil_append]
  rw [getCont_line h2]
  rfl

/-- What the constructor is given, whatever the format of the matrix. -/
def Made {ρ : Type} (items : Cont) (lcomp : Int) (res : Range) (rows par : List ρ) (mpar : Nat) (r : CovRange ρ) : Prop :=
  r.emin = items.c1 ∧ r.emax = items.c2 ∧ r.rows = rows ∧ r.mpar = mpar ∧ r.lcomp = lcomp ∧ r.file2 = res ∧ r.par2 = (List.range par.length).zip par

theorem general_spec {ρ : Type} {fmt : Fmt ρ} {six : ρ → List ℚ} (ok : FmtOk fmt six) {items : Cont} {rows par : List ρ} {mpar : Nat} {S : Nat → Nat → ℚ} {nls : Int}
    {a b rest : List Line} {res : Range} (hr : fmt.ofRange res = some par) (hb : Begin items 1 nls a) (hg : General six rows mpar S b) (hne : rows ≠ [])
    (hp : (rows.map fmt.energy).Perm (par.map fmt.energy)) (ha : ∀ r ∈ rows, ∀ p ∈ par, fmt.energy r = fmt.energy p → fmt.add (ok.base r) p = r) :
    ∃ r, readCov fmt items res (a ++ (b ++ rest)) = .ok (r, rest) ∧ Made items 1 res rows par mpar r ∧
      r.cov = ⟨mpar * rows.length, fun i j => if i ≤ j ∧ j < mpar * rows.length then S i j else 0⟩ := by
  obtain ⟨c, h1, h2, h3⟩ := begin_read fmt hb res (b ++ rest)
  rw [h3]
  obtain ⟨l, c1, c2, b', rfl, g1, g2, g3, g4, g5⟩ := hg
  have hblock : blockGeneral fmt (b' ++ rest) = .ok ((rows.map ok.base,
      ⟨mpar * rows.length, fun i j => if i ≤ j ∧ j < mpar * rows.length then S i j else 0⟩), rest) := by
    unfold blockGeneral
    rw [getList_rec g3]
    simp only [bind, Except.bind]
    have hlen := flatMap_len rows six 6 fun r _ => ok.len r
    rw [g5, Int.toNat_natCast, List.take_left' (by rw [hlen]; ring), List.drop_left' (by rw [hlen]; ring), rowsAt_spec ok]
    simp only
    rw [g4, show ((mpar : Int) * (rows.length : Int)).toNat = mpar * rows.length by rw [← Int.natCast_mul, Int.toNat_natCast], setTriu_upper]
    rfl
  have hgen : readGeneral fmt ((l :: b') ++ rest) = .ok ((rows.map ok.base,
      some ⟨mpar * rows.length, fun i j => if i ≤ j ∧ j < mpar * rows.length then S i j else 0⟩), rest) := by
    unfold readGeneral
    rw [List.cons_append, getCont_line g1]
    simp only [bind, Except.bind, g2, Int.toNat_one, many]
    rw [hblock]
    simp [pure, Except.pure]
  rw [if_pos h1, hgen]
  simp only [bind, Except.bind]
  rw [if_neg (by simpa using hne), hr]
  simp only
  rw [addFile2_spec fmt ok.base ok.energy hp ha]
  simp only [pure, Except.pure, List.length_map]
  have hpos : 0 < rows.length := List.length_pos_iff.mpr hne
  exact ⟨_, rfl, ⟨rfl, rfl, rfl, Nat.mul_div_cancel _ hpos, h1, rfl, rfl⟩, rfl⟩

theorem bw_add {rows par : List BwRow} (h : FromFile2Bw rows par) : ∀ r ∈ rows, ∀ p ∈ par, bwFmt.energy r = bwFmt.energy p → bwFmt.add (bwOk.base r) p = r := by
  intro r hr p hp he
  obtain ⟨h1, h2⟩ := h.2.2 r hr p hp he
  obtain ⟨e, l, j, gt, gn, gg, gf, gx⟩ := r
  simp only at h1 h2
  subst h1 h2
  rfl

theorem rm_add {rows par : List RmRow} (h : FromFile2Rm rows par) : ∀ r ∈ rows, ∀ p ∈ par, rmFmt.energy r = rmFmt.energy p → rmFmt.add (rmOk.base r) p = r := by
  intro r hr p hp he
  have h1 := h.2.2 r hr p hp he
  obtain ⟨e, l, j, gn, gg, gfa, gfb⟩ := r
  simp only at h1
  subst h1
  rfl

/-- C149, Breit-Wigner ranges with LCOMP = 1 and one block: the resonances are those of file 32 in its order, with l and competitive width from file 2, and the upper
triangle of the covariance matrix is that of the file, `mpar` parameters for each resonance. What is missing: more than one block (`C149_blocks_refuted`). -/
theorem C149_breit_wigner_partial (items : Cont) (b : Bw) (rows : List BwRow) (mpar : Nat) (S : Nat → Nat → ℚ) (nls : Int) (ls ls' rest : List Line)
    (h1 : Begin items 1 nls ls) (h2 : General sixBw rows mpar S ls') (hne : rows ≠ []) (h3 : FromFile2Bw rows b.rows) :
    ∃ r, readCov bwFmt items (.bw b) (ls ++ (ls' ++ rest)) = .ok (r, rest) ∧ r.emin = items.c1 ∧ r.emax = items.c2 ∧ r.rows = rows ∧ r.mpar = mpar ∧ r.lcomp = 1 ∧
      r.file2 = .bw b ∧ r.par2 = (List.range b.rows.length).zip b.rows ∧ r.cov.n = mpar * rows.length ∧ ∀ i j, j < mpar * rows.length → r.cov.val i j = if i ≤ j then S i j else 0 := by
  obtain ⟨r, e, ⟨m1, m2, m3, m4, m5, m6, m7⟩, m8⟩ := general_spec bwOk (res := .bw b) (par := b.rows) rfl h1 h2 hne h3.2.1 (bw_add h3) (rest := rest)
  refine ⟨r, e, m1, m2, m3, m4, m5, m6, m7, by rw [m8], fun i j hj => ?_⟩
  rw [m8]
  simp [hj]

/-- C149, the same for Reich-Moore ranges. -/
theorem C149_reich_moore_partial (items : Cont) (b : Rm) (rows : List RmRow) (mpar : Nat) (S : Nat → Nat → ℚ) (nls : Int) (ls ls' rest : List Line)
    (h1 : Begin items 1 nls ls) (h2 : General sixRm rows mpar S ls') (hne : rows ≠ []) (h3 : FromFile2Rm rows b.rows) :
    ∃ r, readCov rmFmt items (.rm b) (ls ++ (ls' ++ rest)) = .ok (r, rest) ∧ r.emin = items.c1 ∧ r.emax = items.c2 ∧ r.rows = rows ∧ r.mpar = mpar ∧ r.lcomp = 1 ∧
      r.file2 = .rm b ∧ r.par2 = (List.range b.rows.length).zip b.rows ∧ r.cov.n = mpar * rows.length ∧ ∀ i j, j < mpar * rows.length → r.cov.val i j = if i ≤ j then S i j else 0 := by
  obtain ⟨r, e, ⟨m1, m2, m3, m4, m5, m6, m7⟩, m8⟩ := general_spec rmOk (res := .rm b) (par := b.rows) rfl h1 h2 hne h3.2.1 (rm_add h3) (rest := rest)
  refine ⟨r, e, m1, m2, m3, m4, m5, m6, m7, by rw [m8], fun i j hj => ?_⟩
  rw [m8]
  simp [hj]

/-- LCOMP = 1 with two blocks. -/
def General2 (rows rows' : List BwRow) (mpar mpar' : Nat) (S S' : Nat → Nat → ℚ) (ls : List Line) : Prop :=
  ∃ (l : Line) (c c' c'' : Cont) (b b' : List Line), ls = l :: (b ++ b') ∧ ContLine c l ∧ c.n1 = 2 ∧
    ListRec c' (rows.flatMap sixBw ++ upper (mpar * rows.length) S) b ∧ c'.l1 = mpar ∧ c'.n2 = rows.length ∧
    ListRec c'' (rows'.flatMap sixBw ++ upper (mpar' * rows'.length) S') b' ∧ c''.l1 = mpar' ∧ c''.n2 = rows'.length

/-- **C149 is false** for more than one block: with two blocks the range has the resonances of both, but a matrix with the size of the second one: there is no covariance for
the resonances of the first, and `mpar` is not the number of parameters of a resonance. -/
theorem C149_blocks_refuted (items : Cont) (b : Bw) (rows rows' : List BwRow) (mpar : Nat) (S S' : Nat → Nat → ℚ) (nls : Int) (ls ls' rest : List Line)
    (h1 : Begin items 1 nls ls) (h2 : General2 rows rows' mpar mpar S S' ls') (hne : rows ≠ []) (hm : 0 < mpar) (h3 : FromFile2Bw (rows ++ rows') b.rows) :
    ∃ r, readCov bwFmt items (.bw b) (ls ++ (ls' ++ rest)) = .ok (r, rest) ∧ r.rows = rows ++ rows' ∧ r.cov.n = mpar * rows'.length ∧
      r.cov.n < mpar * r.rows.length ∧ r.mpar < mpar := by
  obtain ⟨c, e1, e2, e3⟩ := begin_read bwFmt h1 (.bw b) (ls' ++ rest)
  rw [e3]
  obtain ⟨l, c0, c1, c2, b1, b2, rfl, g1, g2, g3, g4, g5, g6, g7, g8⟩ := h2
  have hblock : ∀ (rows : List BwRow) (S : Nat → Nat → ℚ) (c1 : Cont) (b1 : List Line), ListRec c1 (rows.flatMap sixBw ++ upper (mpar * rows.length) S) b1 → c1.l1 = mpar →
      c1.n2 = rows.length → ∀ rest, blockGeneral bwFmt (b1 ++ rest) = .ok ((rows.map bwOk.base,
      ⟨mpar * rows.length, fun i j => if i ≤ j ∧ j < mpar * rows.length then S i j else 0⟩), rest) := by
    intro rows S c1 b1 g3 g4 g5 rest
    unfold blockGeneral
    rw [getList_rec g3]
    simp only [bind, Except.bind]
    have hlen := flatMap_len rows sixBw 6 fun r _ => bwOk.len r
    rw [g5, Int.toNat_natCast, List.take_left' (by rw [hlen]; ring), List.drop_left' (by rw [hlen]; ring), rowsAt_spec bwOk]
    simp only
    rw [g4, show ((mpar : Int) * (rows.length : Int)).toNat = mpar * rows.length by rw [← Int.natCast_mul, Int.toNat_natCast], setTriu_upper]
    rfl
  have hgen : readGeneral bwFmt ((l :: (b1 ++ b2)) ++ rest) = .ok (((rows ++ rows').map bwOk.base,
      some ⟨mpar * rows'.length, fun i j => if i ≤ j ∧ j < mpar * rows'.length then S' i j else 0⟩), rest) := by
    unfold readGeneral
    rw [List.cons_append, getCont_line g1]
    simp only [bind, Except.bind, g2, show (2 : Int).toNat = 2 from rfl, many]
    rw [List.append_assoc, hblock rows S c1 b1 g3 g4 g5]
    simp only
    rw [hblock rows' S' c2 b2 g6 g7 g8]
    simp [pure, Except.pure]
  rw [if_pos e1, hgen]
  simp only [bind, Except.bind]
  rw [if_neg (by simp [hne]), show bwFmt.ofRange (.bw b) = some b.rows from rfl]
  simp only
  rw [addFile2_spec bwFmt bwOk.base bwOk.energy h3.2.1 (bw_add h3)]
  simp only [pure, Except.pure]
  have hpos : 0 < rows.length := List.length_pos_iff.mpr hne
  refine ⟨_, rfl, rfl, rfl, ?_, ?_⟩
  · simp only [List.length_append]
    exact Nat.mul_lt_mul_of_pos_left (by omega) hm
  · simp only [List.length_map, List.length_append]
    rw [Nat.div_lt_iff_lt_mul (by omega)]
    exact Nat.mul_lt_mul_of_pos_left (by omega) hm

end ASAPy.ResCov
