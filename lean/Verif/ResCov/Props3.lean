import Verif.ResCov.Props2

/-!
# Properties of covariances of resonance parameters: sampling (C152)
-/

namespace ASAPy.ResCov
open ASAPy.Endf ASAPy.Res ASAPy.Decay

/-- The parameters of a resonance that can be drawn, in the order of the file. -/
def drawnOf (r : BwRow) : List ℚ := [r.energy, r.gn, r.gg, r.gf, r.gx]

def drawnOfRm (r : RmRow) : List ℚ := [r.energy, r.gn, r.gg, r.gfa, r.gfb]

theorem call_spec {ρ : Type} (fmt : Fmt ρ) (h5 : ∀ x, (fmt.five x).length = 5) (r : CovRange ρ) (hm : r.mpar ≤ 5) (hn : r.cov.n = r.mpar * r.rows.length) :
    sampleCall fmt r = .ok (r.rows.flatMap fun x => (fmt.five x).take r.mpar, r.cov.symm) := by
  unfold sampleCall
  simp only
  rw [if_pos]
  rw [hn]
  exact flatMap_len _ _ _ fun x _ => by rw [List.length_take, h5]; omega

/-- The symmetric matrix from its upper triangle. -/
theorem symm_upper (m : Cov) (S : Nat → Nat → ℚ) (hs : ∀ i j, S i j = S j i) (h : ∀ i j, j < m.n → m.val i j = if i ≤ j then S i j else 0) (i j : Nat) (hi : i < m.n)
    (hj : j < m.n) : m.symm.val i j = S i j := by
  simp only [Cov.symm]
  rw [h i j hj, h j i hi, h i i hi, if_pos (le_refl i)]
  rcases lt_trichotomy i j with hij | rfl | hij
  · rw [if_pos hij.le, if_neg (by omega), if_neg (by omega)]
    ring
  · rw [if_pos (le_refl i), if_pos rfl]
    ring
  · rw [if_neg (by omega), if_pos hij.le, if_neg (by omega), hs]
    ring

/-- C152: where the range has the upper triangle of the covariance matrix `S` of its parameters (as is read with LCOMP = 1), draws are asked for with the
parameters of the resonances, resonance by resonance, as the mean, and `S` as the covariance. -/
theorem C152_call_partial (r : CovRange BwRow) (S : Nat → Nat → ℚ) (hs : ∀ i j, S i j = S j i) (hm : r.mpar ≤ 5) (hn : r.cov.n = r.mpar * r.rows.length)
    (h : ∀ i j, j < r.cov.n → r.cov.val i j = if i ≤ j then S i j else 0) :
    ∃ m, sampleCall bwFmt r = .ok (r.rows.flatMap fun x => (drawnOf x).take r.mpar, m) ∧ m.n = r.cov.n ∧ ∀ i j, i < m.n → j < m.n → m.val i j = S i j :=
  ⟨_, call_spec bwFmt (fun _ => rfl) r hm hn, rfl, fun i j hi hj => symm_upper r.cov S hs h i j hi hj⟩

theorem C152_call_rm_partial (r : CovRange RmRow) (S : Nat → Nat → ℚ) (hs : ∀ i j, S i j = S j i) (hm : r.mpar ≤ 5) (hn : r.cov.n = r.mpar * r.rows.length)
    (h : ∀ i j, j < r.cov.n → r.cov.val i j = if i ≤ j then S i j else 0) :
    ∃ m, sampleCall rmFmt r = .ok (r.rows.flatMap fun x => (drawnOfRm x).take r.mpar, m) ∧ m.n = r.cov.n ∧ ∀ i j, i < m.n → j < m.n → m.val i j = S i j :=
  ⟨_, call_spec rmFmt (fun _ => rfl) r hm hn, rfl, fun i j hi hj => symm_upper r.cov S hs h i j hi hj⟩

/-- **C152 is false** where the range has the whole symmetric matrix (as is read with LCOMP = 2): all covariances of different parameters that are handed over are twice
those of the file, so that correlations above one half become greater than one. -/
theorem C152_compact_refuted {ρ : Type} (fmt : Fmt ρ) (h5 : ∀ x, (fmt.five x).length = 5) (r : CovRange ρ) (hm : r.mpar ≤ 5) (hn : r.cov.n = r.mpar * r.rows.length)
    (hs : ∀ i j, i < r.cov.n → j < r.cov.n → r.cov.val i j = r.cov.val j i) :
    ∃ mean m, sampleCall fmt r = .ok (mean, m) ∧ (∀ i, m.val i i = r.cov.val i i) ∧
      ∀ i j, i < r.cov.n → j < r.cov.n → i ≠ j → m.val i j = 2 * r.cov.val i j := by
  refine ⟨_, _, call_spec fmt h5 r hm hn, fun i => ?_, fun i j hi hj hij => ?_⟩
  · simp [Cov.symm]
  · simp only [Cov.symm]
    rw [if_neg hij, hs j i hj hi]
    ring

/-! ### The draws -/

theorem stride_spec {α : Type} (z : List (α × List ℚ)) (m k : Nat) (hk : k < m) (h : ∀ p ∈ z, p.2.length = m) :
    stride (z.flatMap (·.2)) k m = z.map fun p => p.2.getD k 0 := by
  unfold stride
  have hlen : (z.flatMap (·.2)).length = m * z.length := flatMap_len z (·.2) m h
  have hdiv : ((z.flatMap (·.2)).length - k + (m - 1)) / m = z.length := by
    rw [hlen]
    rcases Nat.eq_zero_or_pos z.length with h0 | h0
    · rw [h0, Nat.mul_zero, Nat.zero_sub, Nat.zero_add]
      exact Nat.div_eq_of_lt (by omega)
    · have : m * 1 ≤ m * z.length := Nat.mul_le_mul_left m h0
      rw [show m * z.length - k + (m - 1) = m * z.length + (m - 1 - k) by omega, Nat.mul_add_div (by omega), Nat.div_eq_of_lt (by omega), Nat.add_zero]
  rw [hdiv]
  clear hlen hdiv
  induction z with
  | nil => rfl
  | cons p z ih =>
    have hp := h p (by simp)
    rw [List.length_cons, List.range_succ_eq_map, List.filterMap_cons, List.flatMap_cons, Nat.mul_zero, Nat.add_zero, List.getElem?_append_left (by omega),
      List.getElem?_eq_getElem (by omega)]
    simp only [List.map_cons]
    congr 1
    · rw [List.getD_eq_getElem?_getD, List.getElem?_eq_getElem (by omega)]
      rfl
    · rw [← ih fun q hq => h q (by simp [hq]), List.filterMap_map]
      refine List.filterMap_congr fun i _ => ?_
      simp only [Function.comp]
      rw [List.getElem?_append_right (by rw [hp, Nat.mul_succ]; omega), hp]
      congr 1
      rw [Nat.mul_succ]
      omega

theorem npAdd_map {α : Type} (z : List α) (f g : α → ℚ) : npAdd (z.map f) (z.map g) = .ok (z.map fun p => f p + g p) := by
  unfold npAdd
  rw [if_pos (by simp)]
  congr 1
  induction z with
  | nil => rfl
  | cons p z ih => simp only [List.map_cons, List.zipWith_cons_cons, ih]

theorem item_map {α β : Type} (z : List α) (f : α → β) (i : Nat) (hi : i < z.length) : item (z.map f) i = .ok (f z[i]) := by
  unfold item
  rw [List.getElem?_map, List.getElem?_eq_getElem hi]
  rfl

/-- The resonance that is made of numbers drawn. -/
def drawBw (r : BwRow) (v : List ℚ) : BwRow :=
  let gf := if v.length > 3 then v.getD 3 0 else r.gf
  let gx := if v.length > 4 then v.getD 4 0 else r.gx
  ⟨v.getD 0 0, r.l, r.j, v.getD 1 0 + v.getD 2 0 + gf + gx, v.getD 1 0, v.getD 2 0, gf, gx⟩

def drawRm (r : RmRow) (v : List ℚ) : RmRow :=
  ⟨v.getD 0 0, r.l, r.j, v.getD 1 0, v.getD 2 0, if v.length > 3 then v.getD 3 0 else r.gfa, if v.length > 3 then v.getD 4 0 else r.gfb⟩

theorem drawBw_spec (r : BwRow) (v : List ℚ) (h : v.length = 3 ∨ v.length = 4 ∨ v.length = 5) : DrawnBw r v (drawBw r v) := by
  rcases h with h | h | h
  · obtain ⟨a, b, c, rfl⟩ := List.length_eq_three.mp h
    exact .three a b c
  · match v, h with
    | [a, b, c, d], _ => exact .four a b c d
  · match v, h with
    | [a, b, c, d, e], _ => exact .five a b c d e

theorem drawRm_spec (r : RmRow) (v : List ℚ) (h : v.length = 3 ∨ v.length = 5) : DrawnRm r v (drawRm r v) := by
  rcases h with h | h
  · obtain ⟨a, b, c, rfl⟩ := List.length_eq_three.mp h
    exact .three a b c
  · match v, h with
    | [a, b, c, d, e], _ => exact .five a b c d e

theorem decodeBw_spec (z : List (BwRow × List ℚ)) (m : Nat) (hm : m = 3 ∨ m = 4 ∨ m = 5) (h : ∀ p ∈ z, p.2.length = m) :
    decodeBw (z.map (·.1)) m (z.flatMap (·.2)) = .ok (z.map fun p => drawBw p.1 p.2) := by
  unfold decodeBw
  rw [if_neg (by omega)]
  have s0 := stride_spec z m 0 (by omega) h
  have s1 := stride_spec z m 1 (by omega) h
  have s2 := stride_spec z m 2 (by omega) h
  have hgf : (if m > 3 then stride (z.flatMap (·.2)) 3 m else (z.map (·.1)).map (·.gf)) = z.map fun p => if p.2.length > 3 then p.2.getD 3 0 else p.1.gf := by
    by_cases h3 : m > 3
    · rw [if_pos h3, stride_spec z m 3 h3 h]
      refine List.map_congr_left fun p hp => ?_
      rw [if_pos (by rw [h p hp]; exact h3)]
    · rw [if_neg h3, List.map_map]
      refine List.map_congr_left fun p hp => ?_
      rw [if_neg (by rw [h p hp]; exact h3)]
      rfl
  have hgx : (if m > 4 then stride (z.flatMap (·.2)) 4 m else (z.map (·.1)).map (·.gx)) = z.map fun p => if p.2.length > 4 then p.2.getD 4 0 else p.1.gx := by
    by_cases h3 : m > 4
    · rw [if_pos h3, stride_spec z m 4 h3 h]
      refine List.map_congr_left fun p hp => ?_
      rw [if_pos (by rw [h p hp]; exact h3)]
    · rw [if_neg h3, List.map_map]
      refine List.map_congr_left fun p hp => ?_
      rw [if_neg (by rw [h p hp]; exact h3)]
      rfl
  simp only [s0, s1, s2, hgf, hgx, npAdd_map, bind, Except.bind]
  rw [show (z.map fun p => p.2.getD 0 0).length = (z.map fun p => drawBw p.1 p.2).length by simp]
  refine rowsFrom_of fun i hi => ?_
  rw [List.length_map] at hi
  simp only [Nat.zero_add, item_map _ _ _ hi, List.getElem_map]
  rfl

theorem decodeRm_spec (z : List (RmRow × List ℚ)) (m : Nat) (hm : m = 3 ∨ m = 5) (h : ∀ p ∈ z, p.2.length = m) :
    decodeRm (z.map (·.1)) m (z.flatMap (·.2)) = .ok (z.map fun p => drawRm p.1 p.2) := by
  unfold decodeRm
  rw [if_neg (by omega)]
  have s0 := stride_spec z m 0 (by omega) h
  have s1 := stride_spec z m 1 (by omega) h
  have s2 := stride_spec z m 2 (by omega) h
  have hgf : (if m > 3 then stride (z.flatMap (·.2)) 3 m else (z.map (·.1)).map (·.gfa)) = z.map fun p => if p.2.length > 3 then p.2.getD 3 0 else p.1.gfa := by
    by_cases h3 : m > 3
    · rw [if_pos h3, stride_spec z m 3 h3 h]
      refine List.map_congr_left fun p hp => ?_
      rw [if_pos (by rw [h p hp]; exact h3)]
    · rw [if_neg h3, List.map_map]
      refine List.map_congr_left fun p hp => ?_
      rw [if_neg (by rw [h p hp]; exact h3)]
      rfl
  have hgx : (if m > 3 then stride (z.flatMap (·.2)) 4 m else (z.map (·.1)).map (·.gfb)) = z.map fun p => if p.2.length > 3 then p.2.getD 4 0 else p.1.gfb := by
    by_cases h3 : m > 3
    · rw [if_pos h3, stride_spec z m 4 (by omega) h]
      refine List.map_congr_left fun p hp => ?_
      rw [if_pos (by rw [h p hp]; exact h3)]
    · rw [if_neg h3, List.map_map]
      refine List.map_congr_left fun p hp => ?_
      rw [if_neg (by rw [h p hp]; exact h3)]
      rfl
  simp only [s0, s1, s2, hgf, hgx, bind, Except.bind]
  rw [show (z.map fun p => p.2.getD 0 0).length = (z.map fun p => drawRm p.1 p.2).length by simp]
  refine rowsFrom_of fun i hi => ?_
  rw [List.length_map] at hi
  simp only [Nat.zero_add, item_map _ _ _ hi, List.getElem_map]
  rfl

/-- A list of `m * n` numbers is `n` lists of `m`. -/
theorem chunks {α : Type} (rows : List α) (m : Nat) (s : List ℚ) (h : s.length = m * rows.length) :
    ∃ z : List (α × List ℚ), z.map (·.1) = rows ∧ z.flatMap (·.2) = s ∧ ∀ p ∈ z, p.2.length = m := by
  induction rows generalizing s with
  | nil =>
    refine ⟨[], rfl, ?_, by simp⟩
    rw [List.length_nil, Nat.mul_zero, List.length_eq_zero_iff] at h
    rw [h]
    rfl
  | cons r rows ih =>
    rw [List.length_cons, Nat.mul_succ] at h
    obtain ⟨z, h1, h2, h3⟩ := ih (s.drop m) (by rw [List.length_drop]; omega)
    refine ⟨(r, s.take m) :: z, by rw [List.map_cons, h1], by rw [List.flatMap_cons, h2, List.take_append_drop], ?_⟩
    intro p hp
    rcases List.mem_cons.mp hp with rfl | hp
    · rw [List.length_take]
      omega
    · exact h3 p hp

theorem mapE_ok {α β : Type} (f : α → Except PyErr β) (g : α → β) (l : List α) (h : ∀ a ∈ l, f a = .ok (g a)) : mapE f l = .ok (l.map g) := by
  induction l with
  | nil => rfl
  | cons a l ih =>
    rw [mapE, h a (by simp), ih fun b hb => h b (by simp [hb])]
    rfl

theorem mapE_rel {α β : Type} (f : α → Except PyErr β) (P : α → β → Prop) (l : List α) (h : ∀ a ∈ l, ∃ b, f a = .ok b ∧ P a b) :
    ∃ bs, mapE f l = .ok bs ∧ List.Forall₂ P l bs := by
  induction l with
  | nil => exact ⟨[], rfl, .nil⟩
  | cons a l ih =>
    obtain ⟨b, h1, h2⟩ := h a (by simp)
    obtain ⟨bs, h3, h4⟩ := ih fun c hc => h c (by simp [hc])
    refine ⟨b :: bs, ?_, .cons h2 h4⟩
    rw [mapE, h1, h3]
    rfl

/-- C152, Breit-Wigner ranges with three, four or five parameters: each draw gives the range of file 2 with one resonance for each resonance, made of the numbers that
belong to it; l, spin and what is not drawn are kept, and the total width is the sum of the partial widths. -/
theorem C152_breit_wigner_partial (normal : List ℚ → Cov → List (List ℚ)) (hlen : ∀ mean c, ∀ s ∈ normal mean c, s.length = c.n) (r : CovRange BwRow) (b : Bw)
    (hf : r.file2 = .bw b) (hm : r.mpar = 3 ∨ r.mpar = 4 ∨ r.mpar = 5) (hn : r.cov.n = r.mpar * r.rows.length) :
    ∃ mean m out, sampleCall bwFmt r = .ok (mean, m) ∧ sample bwFmt decodeBw normal r = .ok out ∧
      List.Forall₂ (fun s o => ∃ z rows', z.map (·.1) = r.rows ∧ z.flatMap (·.2) = s ∧ (∀ p ∈ z, p.2.length = r.mpar) ∧
        List.Forall₂ (fun (p : BwRow × List ℚ) x => DrawnBw p.1 p.2 x) z rows' ∧ o = Range.bw { b with rows := rows' }) (normal mean m) out := by
  have hcall := call_spec bwFmt (fun _ => rfl) r (by omega) hn
  refine ⟨r.rows.flatMap fun x => (bwFmt.five x).take r.mpar, r.cov.symm, ?_⟩
  obtain ⟨bs, h1, h2⟩ := mapE_rel (decodeBw r.rows r.mpar) (fun s rows' => ∃ z : List (BwRow × List ℚ), z.map (·.1) = r.rows ∧ z.flatMap (·.2) = s ∧
      (∀ p ∈ z, p.2.length = r.mpar) ∧ List.Forall₂ (fun (p : BwRow × List ℚ) x => DrawnBw p.1 p.2 x) z rows')
    (normal (r.rows.flatMap fun x => (bwFmt.five x).take r.mpar) r.cov.symm) (by
      intro s hs
      have hl : s.length = r.mpar * r.rows.length := by rw [hlen _ _ s hs]; exact hn
      obtain ⟨z, z1, z2, z3⟩ := chunks r.rows r.mpar s hl
      refine ⟨z.map fun p => drawBw p.1 p.2, ?_, z, z1, z2, z3, ?_⟩
      · rw [← z1, ← z2]
        exact decodeBw_spec z r.mpar hm z3
      · rw [List.forall₂_map_right_iff, List.forall₂_same]
        intro p hp
        exact drawBw_spec p.1 p.2 (by rw [z3 p hp]; exact hm))
  refine ⟨bs.map (bwFmt.toRange r.file2), hcall, ?_, ?_⟩
  · unfold sample
    rw [hcall]
    simp only [bind, Except.bind]
    rw [h1]
    rfl
  · rw [List.forall₂_map_right_iff]
    refine h2.imp fun s rows' h => ?_
    obtain ⟨z, z1, z2, z3, z4⟩ := h
    exact ⟨z, rows', z1, z2, z3, z4, by rw [hf]; rfl⟩

/-- C152, Reich-Moore ranges with three or five parameters. -/
theorem C152_reich_moore_partial (normal : List ℚ → Cov → List (List ℚ)) (hlen : ∀ mean c, ∀ s ∈ normal mean c, s.length = c.n) (r : CovRange RmRow) (b : Rm)
    (hf : r.file2 = .rm b) (hm : r.mpar = 3 ∨ r.mpar = 5) (hn : r.cov.n = r.mpar * r.rows.length) :
    ∃ mean m out, sampleCall rmFmt r = .ok (mean, m) ∧ sample rmFmt decodeRm normal r = .ok out ∧
      List.Forall₂ (fun s o => ∃ z rows', z.map (·.1) = r.rows ∧ z.flatMap (·.2) = s ∧ (∀ p ∈ z, p.2.length = r.mpar) ∧
        List.Forall₂ (fun (p : RmRow × List ℚ) x => DrawnRm p.1 p.2 x) z rows' ∧ o = Range.rm { b with rows := rows' }) (normal mean m) out := by
  have hcall := call_spec rmFmt (fun _ => rfl) r (by omega) hn
  refine ⟨r.rows.flatMap fun x => (rmFmt.five x).take r.mpar, r.cov.symm, ?_⟩
  obtain ⟨bs, h1, h2⟩ := mapE_rel (decodeRm r.rows r.mpar) (fun s rows' => ∃ z : List (RmRow × List ℚ), z.map (·.1) = r.rows ∧ z.flatMap (·.2) = s ∧
      (∀ p ∈ z, p.2.length = r.mpar) ∧ List.Forall₂ (fun (p : RmRow × List ℚ) x => DrawnRm p.1 p.2 x) z rows')
    (normal (r.rows.flatMap fun x => (rmFmt.five x).take r.mpar) r.cov.symm) (by
      intro s hs
      have hl : s.length = r.mpar * r.rows.length := by rw [hlen _ _ s hs]; exact hn
      obtain ⟨z, z1, z2, z3⟩ := chunks r.rows r.mpar s hl
      refine ⟨z.map fun p => drawRm p.1 p.2, ?_, z, z1, z2, z3, ?_⟩
      · rw [← z1, ← z2]
        exact decodeRm_spec z r.mpar hm z3
      · rw [List.forall₂_map_right_iff, List.forall₂_same]
        intro p hp
        exact drawRm_spec p.1 p.2 (by rw [z3 p hp]; exact hm))
  refine ⟨bs.map (rmFmt.toRange r.file2), hcall, ?_, ?_⟩
  · unfold sample
    rw [hcall]
    simp only [bind, Except.bind]
    rw [h1]
    rfl
  · rw [List.forall₂_map_right_iff]
    refine h2.imp fun s rows' h => ?_
    obtain ⟨z, z1, z2, z3, z4⟩ := h
    exact ⟨z, rows', z1, z2, z3, z4, by rw [hf]; rfl⟩

/-- A row that fails makes all fail. -/
theorem rowsFrom_fail {α : Type} {row : Nat → Except PyErr α} (n : Nat) : ∀ (s : Nat), (∀ i e, row i = .error e → e = .indexError) →
    (∃ i, s ≤ i ∧ i < s + n ∧ row i = .error .indexError) → rowsFrom row s n = .error .indexError := by
  induction n with
  | zero =>
    rintro s _ ⟨i, h1, h2, _⟩
    omega
  | succ n ih =>
    rintro s he ⟨i, h1, h2, h3⟩
    rw [rowsFrom]
    cases hr : row s with
    | error e =>
      rw [he s e hr]
      rfl
    | ok a =>
      have : s ≠ i := by
        rintro rfl
        rw [hr] at h3
        cases h3
      simp only [bind, Except.bind]
      rw [ih (s + 1) he ⟨i, by omega, by omega, h3⟩]

theorem item_error {α : Type} {xs : List α} {i : Nat} {e : PyErr} (h : item xs i = .error e) : e = .indexError := by
  unfold item at h
  cases hx : xs[i]? with
  | none =>
    rw [hx] at h
    cases h
    rfl
  | some x =>
    rw [hx] at h
    cases h

theorem stride_len {α : Type} (s : List α) (k m n : Nat) (h : (s.length - k + (m - 1)) / m ≤ n) : item (stride s k m) n = .error .indexError := by
  have : (stride s k m).length ≤ n := by
    refine Nat.le_trans (List.length_filterMap_le _ _) ?_
    rw [List.length_range]
    exact h
  unfold item
  rw [List.getElem?_eq_none this]

/-- **C152 is false** for Reich-Moore ranges with one, two or four parameters for a resonance: with at least one resonance and one draw, sampling ends in an
IndexError. Four are the usual case of nuclides with one fission width. -/
theorem C152_reich_moore_refuted (normal : List ℚ → Cov → List (List ℚ)) (hlen : ∀ mean c, ∀ s ∈ normal mean c, s.length = c.n) (hsome : ∀ mean c, normal mean c ≠ [])
    (r : CovRange RmRow) (hm : r.mpar = 1 ∨ r.mpar = 2 ∨ r.mpar = 4) (hn : r.cov.n = r.mpar * r.rows.length) (hr : r.rows ≠ []) :
    sample rmFmt decodeRm normal r = .error .indexError := by
  have hcall := call_spec rmFmt (fun _ => rfl) r (by omega) hn
  unfold sample
  rw [hcall]
  simp only [bind, Except.bind]
  set mean := r.rows.flatMap fun x => (rmFmt.five x).take r.mpar with hmean
  have hpos : 0 < r.rows.length := List.length_pos_iff.mpr hr
  have hdec : ∀ s ∈ normal mean r.cov.symm, decodeRm r.rows r.mpar s = .error .indexError := by
    intro s hs
    have hl : s.length = r.mpar * r.rows.length := by rw [hlen _ _ s hs]; exact hn
    unfold decodeRm
    rw [if_neg (by omega)]
    obtain ⟨z, z1, z2, z3⟩ := chunks r.rows r.mpar s hl
    have s0 := stride_spec z r.mpar 0 (by omega) z3
    rw [z2] at s0
    have hzl : z.length = r.rows.length := by rw [← z1, List.length_map]
    simp only
    rw [s0, List.length_map]
    refine rowsFrom_fail _ 0 ?_ ⟨r.rows.length - 1, by omega, by omega, ?_⟩
    · intro i e he
      simp only [bind, Except.bind] at he
      split at he
      · cases he
        exact item_error ‹_›
      split at he
      · cases he
        exact item_error ‹_›
      split at he
      · cases he
        exact item_error ‹_›
      split at he
      · cases he
        exact item_error ‹_›
      split at he
      · cases he
        exact item_error ‹_›
      split at he
      · cases he
        exact item_error ‹_›
      · cases he
    · have hi : r.rows.length - 1 < z.length := by omega
      rw [item_map _ _ _ hi]
      simp only [bind, Except.bind]
      have hrow : item r.rows (r.rows.length - 1) = .ok (r.rows[r.rows.length - 1]) := by
        unfold item
        rw [List.getElem?_eq_getElem (by omega)]
      rw [hrow]
      simp only
      rcases hm with hm | hm | hm
      · have : item (stride s 1 r.mpar) (r.rows.length - 1) = .error .indexError := stride_len s 1 r.mpar _ (by rw [hl, hm]; simp)
        rw [this]
      · have h1 := stride_spec z r.mpar 1 (by omega) z3
        rw [z2] at h1
        rw [h1, item_map _ _ _ hi]
        have : item (stride s 2 r.mpar) (r.rows.length - 1) = .error .indexError := stride_len s 2 r.mpar _ (by rw [hl, hm]; omega)
        simp only [this]
      · have h1 := stride_spec z r.mpar 1 (by omega) z3
        have h2 := stride_spec z r.mpar 2 (by omega) z3
        have h3 := stride_spec z r.mpar 3 (by omega) z3
        rw [z2] at h1 h2 h3
        rw [if_pos (by omega), if_pos (by omega), h1, h2, h3, item_map _ _ _ hi, item_map _ _ _ hi, item_map _ _ _ hi]
        have : item (stride s 4 r.mpar) (r.rows.length - 1) = .error .indexError := stride_len s 4 r.mpar _ (by rw [hl, hm]; omega)
        simp only [this]
  cases hne : normal mean r.cov.symm with
  | nil => exact absurd hne (hsome _ _)
  | cons s ss =>
    rw [mapE, hdec s (by rw [hne]; simp)]
    rfl

end ASAPy.ResCov
