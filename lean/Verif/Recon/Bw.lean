import Verif.Recon.Hard
import Verif.Recon.Spin

/-!
# Closed forms of the Breit-Wigner cross sections
-/

namespace ASAPy.Recon
open Spec

theorem ok_bind {α β : Type} (x : α) (f : α → Except PyErr β) : ((Except.ok x : Except PyErr α) >>= f) = f x := rfl

/-! ### The values of l and the rows of each -/

theorem mem_firsts {α : Type} [DecidableEq α] {a : α} : ∀ {l seen : List α}, a ∈ firsts seen l ↔ a ∈ seen ∨ a ∈ l
  | [], seen => by simp [firsts]
  | b :: l, seen => by
    rw [firsts, mem_firsts]
    by_cases h : b ∈ seen
    · rw [if_pos h, List.mem_cons]
      constructor
      · rintro (h1 | h1)
        · exact .inl h1
        · exact .inr (.inr h1)
      · rintro (h1 | rfl | h1)
        · exact .inl h1
        · exact .inl h
        · exact .inr h1
    · rw [if_neg h, List.mem_append, List.mem_singleton, List.mem_cons]
      tauto

theorem nodup_firsts {α : Type} [DecidableEq α] : ∀ {l seen : List α}, seen.Nodup → (firsts seen l).Nodup
  | [], _, h => h
  | b :: l, seen, h => by
    rw [firsts]
    apply nodup_firsts
    by_cases hb : b ∈ seen
    · rwa [if_pos hb]
    · rw [if_neg hb]
      exact List.nodup_append.mpr ⟨h, List.nodup_singleton _, by intro a ha c hc; rw [List.mem_singleton] at hc; rintro rfl; exact hb (hc ▸ ha)⟩

theorem firsts_sum {α : Type} [DecidableEq α] (l : List α) (f : α → ℝ) : ((firsts [] l).map f).sum = ∑ a ∈ l.toFinset, f a := by
  rw [← List.sum_toFinset f (nodup_firsts (List.nodup_nil))]
  congr 1
  ext a
  simp [mem_firsts]

theorem sum_absent {K : Type} [DecidableEq K] {a : K} {v : ℝ} : ∀ {ks : List K}, a ∉ ks → (ks.map fun k => if k = a then v else 0).sum = 0
  | [], _ => rfl
  | k :: ks, h => by
    have hk : k ≠ a := by rintro rfl; exact h List.mem_cons_self
    rw [List.map_cons, List.sum_cons, if_neg hk, sum_absent fun e => h (List.mem_cons_of_mem _ e), add_zero]

theorem sum_single {K : Type} [DecidableEq K] {a : K} {v : ℝ} : ∀ {ks : List K}, ks.Nodup → a ∈ ks → (ks.map fun k => if k = a then v else 0).sum = v
  | k :: ks, hn, h => by
    rw [List.nodup_cons] at hn
    rw [List.map_cons, List.sum_cons]
    by_cases e : k = a
    · rw [if_pos e, sum_absent (e ▸ hn.1), add_zero]
    · rw [if_neg e, zero_add]
      exact sum_single hn.2 ((List.mem_cons.mp h).resolve_left fun e' => e e'.symm)

/-- Summing over groups of rows is summing over the rows. -/
theorem sum_groups {α K : Type} [DecidableEq K] (key : α → K) (f : α → ℝ) : ∀ (rows : List α) (ks : List K), ks.Nodup → (∀ r ∈ rows, key r ∈ ks) →
    (ks.map fun k => ((rows.filter fun r => key r = k).map f).sum).sum = (rows.map f).sum
  | [], ks, _, _ => by simp
  | r :: rows, ks, hn, hk => by
    have ih := sum_groups key f rows ks hn fun q hq => hk q (List.mem_cons_of_mem _ hq)
    rw [List.map_cons, List.sum_cons, ← ih]
    have e : (fun k => (((r :: rows).filter fun r => key r = k).map f).sum) =
        fun k => (if k = key r then f r else 0) + ((rows.filter fun r => key r = k).map f).sum := by
      funext k
      rw [List.filter_cons]
      by_cases h : key r = k
      · rw [if_pos (by simpa using h), if_pos h.symm]; simp
      · rw [if_neg (by simpa using h), if_neg (fun h' => h h'.symm)]; simp
    rw [e, List.sum_map_add]
    congr 1
    exact sum_single hn (hk r List.mem_cons_self)

/-! ### Preparing -/

/-- A row with penetration and shift at its energy. -/
noncomputable def prepared (b : Base) (r : BwRow) : BwPrep := ⟨r, pen b r.l r.energy, shift b r.l r.energy⟩

theorem radiusAt_ok {d : ℤ → Option (ℝ → ℝ)} {l : ℤ} (h : (d l).isSome) (E : ℝ) : radiusAt d l E = .ok (radius d l E) := by
  obtain ⟨f, hf⟩ := Option.isSome_iff_exists.mp h
  simp [radiusAt, radius, hf]

theorem hasRadius_isSome {d : ℤ → Option (ℝ → ℝ)} {l : ℤ} {E : ℝ} (h : HasRadius d l E) : (d l).isSome := by
  obtain ⟨f, hf, -⟩ := h
  simp [hf]

theorem hasRadius_pos {d : ℤ → Option (ℝ → ℝ)} {l : ℤ} {E : ℝ} (h : HasRadius d l E) : 0 < radius d l E := by
  obtain ⟨f, hf, h0⟩ := h
  simpa [radius, hf] using h0

theorem waveNumber_pos {A E : ℝ} (hA : 0 < A) (hE : E ≠ 0) : 0 < waveNumber A E := by
  unfold waveNumber neutronMass hbarC
  have : 0 < |E| := abs_pos.mpr hE
  positivity

theorem prepRow_ok {b : Base} {E : ℝ} {l : ℤ} {e : ℝ} (h : RowOk b E l e) : prepRow b l e = .ok (pen b l e, shift b l e) := by
  obtain ⟨h0, h4, -, -, hc, hs⟩ := h
  unfold prepRow
  rw [radiusAt_ok (hasRadius_isSome hc), radiusAt_ok hs]
  simp only [ok_bind]
  rw [penetration_eq h0 h4]
  rfl

theorem waves_ok {b : Base} {E : ℝ} {l : ℤ} {e : ℝ} (h : RowOk b E l e) :
    waves b l E = .ok (pen b l E, shift b l E, phaseshift l (waveNumber b.awr E * radius b.scattering l E)) := by
  obtain ⟨h0, h4, -, hc, -, hs⟩ := h
  unfold waves
  rw [radiusAt_ok (hasRadius_isSome hc), radiusAt_ok hs]
  simp only [ok_bind]
  rw [penetration_eq h0 h4]
  rfl

theorem pen_pos {b : Base} {l : ℤ} {E : ℝ} (hA : 0 < b.awr) (hE : E ≠ 0) (hr : HasRadius b.channel l E) : 0 < pen b l E :=
  outer_pos _ (mul_pos (waveNumber_pos hA hE) (hasRadius_pos hr))

theorem mapM_ok {α β : Type} {f : α → Except PyErr β} {g : α → β} : ∀ {l : List α}, (∀ a ∈ l, f a = .ok (g a)) → l.mapM f = .ok (l.map g)
  | [], _ => rfl
  | a :: l, h => by
    rw [List.mapM_cons, h a List.mem_cons_self, ok_bind, mapM_ok fun b hb => h b (List.mem_cons_of_mem _ hb)]
    rfl

theorem foldlM_ok {α β : Type} {f : β → α → Except PyErr β} {g : β → α → β} : ∀ {l : List α} {b : β}, (∀ a ∈ l, ∀ b, f b a = .ok (g b a)) →
    l.foldlM f b = .ok (l.foldl g b)
  | [], _, _ => rfl
  | a :: l, b, h => by
    rw [List.foldlM_cons, h a List.mem_cons_self, ok_bind, foldlM_ok fun c hc => h c (List.mem_cons_of_mem _ hc)]
    rfl

/-- The dict of a range that has been prepared. -/
noncomputable def bwDict (d : Bw) (m : BwMatrix) : BwMatrix := fun l =>
  if l ∈ firsts [] (d.rows.map (·.l)) then some ((d.rows.map (prepared d.toBase)).filter fun q => q.l = l) else m l

theorem prepareBw_ok {d : Bw} {E : ℝ} (h : BwOk d E) (m : BwMatrix) : prepareBw d m =
    .ok (firsts [] (d.rows.map (·.l)), bwDict d m) := by
  unfold prepareBw
  rw [mapM_ok (g := prepared d.toBase)]
  · rfl
  · intro r hr
    obtain ⟨hok, -, -, -, -, hx, -⟩ := h.2 r hr
    unfold prepBwRow
    rw [prepRow_ok hok, ok_bind]
    simp only []
    rw [if_neg (not_lt.mpr hx)]
    rfl

/-! ### Sums over the rows of an l -/

theorem filter_prepared (b : Base) (rows : List BwRow) (l : ℤ) :
    (rows.map (prepared b)).filter (fun q => q.l = l) = (rows.filter fun r => r.l = l).map (prepared b) := by
  rw [List.filter_map]
  rfl

/-- Widths of a prepared row of the same l. -/
theorem bwWidths_eq (b : Base) (E : ℝ) (r : BwRow) :
    bwWidths (pen b r.l E) (shift b r.l E) (prepared b r) = (neutronWidth b r E, totalWidth b r E, peak b r E) := by
  have e : pen b r.l E * r.gn / pen b r.l r.energy = neutronWidth b r E := by unfold neutronWidth; ring
  unfold bwWidths prepared totalWidth peak
  simp only []
  rw [e]

theorem total_pos {d : Bw} {E : ℝ} (h : BwOk d E) {r : BwRow} (hr : r ∈ d.rows) : 0 < totalWidth d.toBase r E ∧ 0 ≤ neutronWidth d.toBase r E := by
  obtain ⟨⟨-, hA, hE⟩, hrows⟩ := h
  obtain ⟨⟨-, -, he, hc, hc', -⟩, h1, h2, h3, h4, -, -⟩ := hrows r hr
  have p1 := pen_pos hA hE.ne' hc
  have p2 := pen_pos hA he hc'
  have hn : 0 ≤ neutronWidth d.toBase r E := by unfold neutronWidth; positivity
  refine ⟨?_, hn⟩
  unfold totalWidth
  rcases h1.lt_or_eq with h | h
  · have : 0 < neutronWidth d.toBase r E := by unfold neutronWidth; positivity
    linarith
  · linarith

theorem weight_eq (I J : ℝ) : (2 * J + 1) / (4 * I + 2) = weight I J := by
  unfold weight
  congr 1
  ring

/-- The phase shift of the code and that of the recursion. -/
theorem phi_same {b : Base} {E : ℝ} {l : ℤ} {e : ℝ} (h : RowOk b E l e) :
    let φ := phaseshift l (waveNumber b.awr E * radius b.scattering l E)
    Real.cos (2 * φ) = Real.cos (2 * phi b l E) ∧ Real.sin (2 * φ) = Real.sin (2 * phi b l E) ∧ Real.sin φ ^ 2 = Real.sin (phi b l E) ^ 2 := by
  obtain ⟨a, c⟩ := phase_same h.1 h.2.1 (waveNumber b.awr E * radius b.scattering l E)
  exact ⟨a, c, sin_sq_same a⟩

/-! ### Single level -/

theorem slbw_rows {b : Base} {E φ : ℝ} {l : ℤ} (hφ : Real.cos (2 * φ) = Real.cos (2 * phi b l E) ∧ Real.sin (2 * φ) = Real.sin (2 * phi b l E) ∧
    Real.sin φ ^ 2 = Real.sin (phi b l E) ^ 2) : ∀ (rows : List BwRow) (t : Xs), (∀ r ∈ rows, r.l = l ∧ 0 ≤ r.gf) →
    (rows.map (prepared b)).foldl (slbwRow b.spin E (waveNumber b.awr E) (pen b l E) (shift b l E) φ) t =
      ⟨t.elastic + (rows.map (elasticLevel b E)).sum, t.capture + (rows.map fun r => line b r E * r.gg).sum, t.fission + (rows.map fun r => line b r E * r.gf).sum⟩
  | [], t, _ => by simp
  | r :: rows, t, h => by
    obtain ⟨hl, hf⟩ := h r List.mem_cons_self
    rw [List.map_cons, List.foldl_cons, slbw_rows hφ rows _ fun q hq => h q (List.mem_cons_of_mem _ hq)]
    have hw := bwWidths_eq b E r
    rw [hl] at hw
    have hline : Real.pi / (waveNumber b.awr E * waveNumber b.awr E) * ((2 * r.j + 1) / (4 * b.spin + 2)) * neutronWidth b r E /
        ((E - peak b r E) ^ 2 + totalWidth b r E ^ 2 / 4) = line b r E := by
      unfold line
      rw [weight_eq]
      ring
    unfold slbwRow
    rw [hw]
    simp only []
    have hj : (prepared b r).j = r.j := rfl
    have hg : (prepared b r).gg = r.gg := rfl
    have hgf : (prepared b r).gf = r.gf := rfl
    rw [hj, hg, hgf, hline, hφ.1, hφ.2.1, hφ.2.2]
    simp only [List.map_cons, List.sum_cons]
    rw [Xs.mk.injEq]
    refine ⟨?_, by ring, ?_⟩
    · unfold elasticLevel
      rw [hl]
      ring
    · by_cases h0 : 0 < r.gf
      · rw [if_pos h0]; ring
      · rw [if_neg h0]
        have : r.gf = 0 := le_antisymm (not_lt.mp h0) hf
        rw [this]; ring

/-- Adding up what each l adds. -/
theorem foldl_xs {α : Type} (e c f : α → ℝ) : ∀ (l : List α) (t : Xs), l.foldl (fun t a => (⟨t.elastic + e a, t.capture + c a, t.fission + f a⟩ : Xs)) t =
    ⟨t.elastic + (l.map e).sum, t.capture + (l.map c).sum, t.fission + (l.map f).sum⟩
  | [], t => by simp
  | a :: l, t => by
    rw [List.foldl_cons, foldl_xs e c f l]
    simp [add_assoc]

/-- The rows of an l. -/
noncomputable def rowsOf (d : Bw) (l : ℤ) : List BwRow := d.rows.filter fun r => r.l = l

theorem rowsOf_mem {d : Bw} {l : ℤ} {r : BwRow} (h : r ∈ rowsOf d l) : r ∈ d.rows ∧ r.l = l := by
  unfold rowsOf at h
  simpa using h

theorem sum_rowsOf (d : Bw) (f : BwRow → ℝ) : ((firsts [] (d.rows.map (·.l))).map fun l => ((rowsOf d l).map f).sum).sum = (d.rows.map f).sum := by
  apply sum_groups (fun r : BwRow => r.l) f d.rows _ (nodup_firsts List.nodup_nil)
  intro r hr
  rw [mem_firsts]
  exact .inr (List.mem_map_of_mem hr)

theorem ensure_bw {d : Bw} {E : ℝ} (h : BwOk d E) (F : Formalism Bw BwMatrix) (hF : F.prepare = prepareBw) (ls : List ℤ) (m : BwMatrix) :
    ∃ m', ensure F ⟨d, false, ls⟩ m = .ok (firsts [] (d.rows.map (·.l)), m') ∧
      ∀ l ∈ firsts [] (d.rows.map (·.l)), rowsAt m' l = .ok ((rowsOf d l).map (prepared d.toBase)) := by
  refine ⟨bwDict d m, ?_, ?_⟩
  · unfold ensure
    simp only [Bool.false_eq_true, if_false]
    rw [hF, prepareBw_ok h m]
  · intro l hl
    unfold rowsAt bwDict
    rw [if_pos hl]
    simp only []
    rw [filter_prepared]
    rfl

theorem firsts_row {d : Bw} {l : ℤ} (hl : l ∈ firsts [] (d.rows.map (·.l))) : ∃ r ∈ d.rows, r.l = l := by
  rw [mem_firsts] at hl
  rcases hl with hl | hl
  · simp at hl
  · obtain ⟨r, hr, rfl⟩ := List.mem_map.mp hl
    exact ⟨r, hr, rfl⟩

theorem slbw_ok {d : Bw} {E : ℝ} (h : BwOk d E) {m : BwMatrix} (hm : ∀ l ∈ firsts [] (d.rows.map (·.l)), rowsAt m l = .ok ((rowsOf d l).map (prepared d.toBase))) :
    slbw d (firsts [] (d.rows.map (·.l))) m E = .ok ⟨(∑ l ∈ lvalues (d.rows.map (·.l)), potential d.toBase E l) + (d.rows.map (elasticLevel d.toBase E)).sum,
      (d.rows.map fun r => line d.toBase r E * r.gg).sum, (d.rows.map fun r => line d.toBase r E * r.gf).sum⟩ := by
  unfold slbw
  simp only []
  rw [foldlM_ok (g := fun (t : Xs) l => (⟨t.elastic + (potential d.toBase E l + ((rowsOf d l).map (elasticLevel d.toBase E)).sum),
    t.capture + ((rowsOf d l).map fun r => line d.toBase r E * r.gg).sum, t.fission + ((rowsOf d l).map fun r => line d.toBase r E * r.gf).sum⟩ : Xs))]
  · rw [foldl_xs, sum_rowsOf, sum_rowsOf, List.sum_map_add, sum_rowsOf, firsts_sum]
    simp only [zero_add]
    rfl
  · intro l hl t
    obtain ⟨r, hr, hrl⟩ := firsts_row hl
    have hok := (h.2 r hr).1
    rw [hrl] at hok
    rw [hm l hl]
    simp only [ok_bind]
    rw [waves_ok hok]
    simp only [ok_bind]
    have hφ := phi_same hok
    rw [slbw_rows hφ (rowsOf d l) _ fun q hq => ⟨(rowsOf_mem hq).2, (h.2 q (rowsOf_mem hq).1).2.2.2.1⟩]
    have hp : potential d.toBase E l = 4 * Real.pi / (waveNumber d.awr E * waveNumber d.awr E) * (2 * l + 1) *
        Real.sin (phaseshift l (waveNumber d.awr E * radius d.scattering l E)) ^ 2 := by
      rw [hφ.2.2]
      unfold potential
      ring
    rw [hp]
    show Except.ok _ = Except.ok _
    congr 1
    rw [Xs.mk.injEq]
    exact ⟨by ring, rfl, rfl⟩

end ASAPy.Recon
