import Verif.Recon.SWave

/-!
# Reich-Moore cross sections from the collision matrix
-/

namespace ASAPy.Recon
open Spec Complex

noncomputable section

/-! ### Channels -/

theorem mem_momenta (L m : ℕ) (J : ℝ) : J ∈ momenta (L : ℤ) ((m : ℝ) / 2) ↔ ∃ k : ℕ, J = |((L : ℤ) : ℝ) - (m : ℝ) / 2| + k ∧ J ≤ ((L : ℤ) : ℝ) + (m : ℝ) / 2 := by
  rw [momenta_eq, List.mem_map]
  push_cast
  have key : ∀ k : ℕ, k < min (2 * L) m + 1 ↔ |(L : ℝ) - (m : ℝ) / 2| + k ≤ (L : ℝ) + (m : ℝ) / 2 := by
    intro k
    rcases le_total (2 * L) m with h | h
    · have h' : (2 * L : ℝ) ≤ m := by exact_mod_cast h
      rw [min_eq_left h, abs_of_nonpos (by linarith), Nat.lt_succ_iff]
      rw [show (k ≤ 2 * L) ↔ ((k : ℝ) ≤ 2 * L) by exact_mod_cast Iff.rfl]
      constructor <;> intro h <;> linarith
    · have h' : (m : ℝ) ≤ 2 * L := by exact_mod_cast h
      rw [min_eq_right h, abs_of_nonneg (by linarith), Nat.lt_succ_iff]
      rw [show (k ≤ m) ↔ ((k : ℝ) ≤ m) by exact_mod_cast Iff.rfl]
      constructor <;> intro h <;> linarith
  constructor
  · rintro ⟨k, hk, rfl⟩
    rw [List.mem_range, key] at hk
    exact ⟨k, add_comm _ _, by linarith⟩
  · rintro ⟨k, rfl, hk⟩
    exact ⟨k, by rw [List.mem_range, key]; exact hk, add_comm _ _⟩

theorem nodup_momenta (L m : ℕ) : (momenta (L : ℤ) ((m : ℝ) / 2)).Nodup := by
  rw [momenta_eq]
  apply List.Nodup.map _ List.nodup_range
  intro a b h
  have : (a : ℝ) = b := by simpa using h
  exact_mod_cast this

theorem mem_spins (n : ℕ) (s : ℝ) : s ∈ spins ((n : ℝ) / 2) ↔ s = |(n : ℝ) / 2 - 1 / 2| ∨ s = (n : ℝ) / 2 + 1 / 2 := by
  cases n with
  | zero =>
    have e : ((0 : ℕ) : ℝ) / 2 = 0 := by simp
    rw [e, spins_zero]
    norm_num
  | succ n =>
    rw [spins_succ]
    have e1 : |((n + 1 : ℕ) : ℝ) / 2 - 1 / 2| = (n : ℝ) / 2 := by
      have : ((n + 1 : ℕ) : ℝ) / 2 - 1 / 2 = (n : ℝ) / 2 := by push_cast; ring
      rw [this, abs_of_nonneg (by positivity)]
    have e2 : ((n + 1 : ℕ) : ℝ) / 2 + 1 / 2 = ((n : ℝ) + 2) / 2 := by push_cast; ring
    rw [e1, e2]
    simp

theorem half_spin {n : ℕ} {s : ℝ} (h : s ∈ spins ((n : ℝ) / 2)) : ∃ m : ℕ, s = (m : ℝ) / 2 := by
  cases n with
  | zero =>
    have e : ((0 : ℕ) : ℝ) / 2 = 0 := by simp
    rw [e, spins_zero] at h
    exact ⟨1, by simpa using h⟩
  | succ n =>
    rw [spins_succ] at h
    rcases List.mem_cons.mp h with h | h
    · exact ⟨n, h⟩
    · exact ⟨n + 2, by push_cast; exact List.mem_singleton.mp h⟩

theorem mem_channels (n L : ℕ) (c : ℝ × ℝ) : c ∈ channels ((n : ℝ) / 2) (L : ℤ) ↔ c ∈ Channels ((n : ℝ) / 2) (L : ℤ) := by
  obtain ⟨s, J⟩ := c
  unfold channels Channels
  rw [List.mem_flatMap]
  simp only [List.mem_map, Prod.mk.injEq, Set.mem_setOf_eq]
  constructor
  · rintro ⟨s', hs, J', hJ, rfl, rfl⟩
    obtain ⟨m, hm⟩ := half_spin hs
    refine ⟨(mem_spins n _).mp hs, ?_⟩
    rw [hm] at hJ ⊢
    exact (mem_momenta L m _).mp hJ
  · rintro ⟨hs, hJ⟩
    have hs := (mem_spins n s).mpr hs
    obtain ⟨m, hm⟩ := half_spin hs
    refine ⟨s, hs, J, ?_, rfl, rfl⟩
    rw [hm] at hJ ⊢
    exact (mem_momenta L m _).mpr hJ

theorem nodup_spins (n : ℕ) : (spins ((n : ℝ) / 2)).Nodup := by
  cases n with
  | zero =>
    have e : ((0 : ℕ) : ℝ) / 2 = 0 := by simp
    rw [e, spins_zero]
    simp
  | succ n =>
    rw [spins_succ]
    simp only [List.nodup_cons, List.mem_singleton, List.not_mem_nil, not_false_eq_true, List.nodup_nil, and_true]
    intro h
    linarith

theorem nodup_channels (n L : ℕ) : (channels ((n : ℝ) / 2) (L : ℤ)).Nodup := by
  unfold channels
  rw [List.nodup_flatMap]
  refine ⟨?_, ?_⟩
  · intro s hs
    obtain ⟨m, rfl⟩ := half_spin hs
    exact (nodup_momenta L m).map fun a b h => (Prod.mk.inj h).2
  · apply (nodup_spins n).imp
    intro a b hab
    rw [Function.onFun, List.disjoint_left]
    intro c hc hc'
    obtain ⟨J, -, rfl⟩ := List.mem_map.mp hc
    obtain ⟨J', -, e⟩ := List.mem_map.mp hc'
    exact hab (Prod.mk.inj e).1.symm

theorem finsum_channels (n L : ℕ) (F : ℝ × ℝ → ℝ) : ∑ᶠ c ∈ Channels ((n : ℝ) / 2) (L : ℤ), F c = ((channels ((n : ℝ) / 2) (L : ℤ)).map F).sum := by
  classical
  have e : Channels ((n : ℝ) / 2) (L : ℤ) = ↑((channels ((n : ℝ) / 2) (L : ℤ)).toFinset) := by
    ext c
    rw [Finset.mem_coe, List.mem_toFinset, mem_channels]
  rw [e, finsum_mem_coe_finset, List.sum_toFinset F (nodup_channels n L)]

/-! ### The matrix of a channel -/

theorem signedRoot_eq (g : ℝ) : signedRoot g = Real.sign g * √|g| := by
  unfold signedRoot
  rcases lt_trichotomy g 0 with h | h | h
  · rw [if_pos h, Real.sign_of_neg h]
  · simp [h]
  · rw [if_neg (not_lt.mpr h.le), Real.sign_of_pos h]

/-- What a prepared row adds to the matrix. -/
def part (E P a b s : ℝ) (l : ℤ) (q : RmPrep) : Matrix (Fin 3) (Fin 3) ℂ := fun i k =>
  if 0 < l ∧ ((q.j < 0 ∧ s ≠ a) ∨ (0 < q.j ∧ s ≠ b)) then 0 else
    let v : Fin 3 → ℝ := ![√(P * q.gn / q.p), signedRoot q.gfa, signedRoot q.gfb]
    (v i : ℂ) * v k * (0.5 * I / ((q.energy : ℂ) - E - 0.5 * I * q.gg))

theorem matrix_row (E P a b s : ℝ) (l : ℤ) (t : KState) (q : RmPrep) : (rmRow E P a b s l t q).matrix = t.matrix + part E P a b s l q := by
  rw [rmRow_eq]
  ext i k
  rw [Matrix.add_apply]
  by_cases h : 0 < l ∧ ((q.j < 0 ∧ s ≠ a) ∨ (0 < q.j ∧ s ≠ b))
  · have : part E P a b s l q i k = 0 := if_pos h
    rw [if_pos h, this, add_zero]
  · have : part E P a b s l q i k = ((![√(P * q.gn / q.p), signedRoot q.gfa, signedRoot q.gfb] : Fin 3 → ℝ) i : ℂ) * (![√(P * q.gn / q.p), signedRoot q.gfa, signedRoot q.gfb] : Fin 3 → ℝ) k *
        (0.5 * I / ((q.energy : ℂ) - E - 0.5 * I * q.gg)) := if_neg h
    rw [if_neg h, this]
    fin_cases i <;> fin_cases k <;> simp [KState.matrix, -mul_eq_mul_right_iff, -mul_eq_mul_left_iff] <;> ring

theorem matrix_rows (E P a b s : ℝ) (l : ℤ) (rows : List RmPrep) : ∀ t : KState, (rows.foldl (rmRow E P a b s l) t).matrix = t.matrix + (rows.map (part E P a b s l)).sum := by
  induction rows with
  | nil => intro t; simp
  | cons q rows ih =>
    intro t
    rw [List.foldl_cons, ih, matrix_row, List.map_cons, List.sum_cons, add_assoc]

/-- Without fission the other entries are zero. -/
def Plain (t : KState) : Prop := t.fission = false → t.k01 = 0 ∧ t.k02 = 0 ∧ t.k11 = 0 ∧ t.k12 = 0 ∧ t.k22 = 0

theorem plain_row {E P a b s : ℝ} {l : ℤ} {t : KState} (h : Plain t) (q : RmPrep) : Plain (rmRow E P a b s l t q) := by
  unfold rmRow
  simp only []
  split
  · exact h
  · split
    · intro hf; cases hf
    · exact h

theorem plain_rows {E P a b s : ℝ} {l : ℤ} (rows : List RmPrep) : ∀ t : KState, Plain t → Plain (rows.foldl (rmRow E P a b s l) t) := by
  induction rows with
  | nil => intro t h; exact h
  | cons q rows ih => intro t h; exact ih _ (plain_row h q)

theorem sum_filter_zero {β α : Type} [AddMonoid α] (p : β → Prop) [DecidablePred p] (f : β → α) : ∀ l : List β, ((l.filter fun x => p x).map f).sum = (l.map fun x => if p x then f x else 0).sum
  | [] => rfl
  | x :: l => by
    rw [List.filter_cons]
    by_cases h : p x
    · rw [if_pos (by simpa using h), List.map_cons, List.sum_cons, List.map_cons, List.sum_cons, if_pos h, sum_filter_zero p f l]
    · rw [if_neg (by simpa using h), List.map_cons, List.sum_cons, if_neg h, zero_add, sum_filter_zero p f l]

theorem sum_apply (l : List (Matrix (Fin 3) (Fin 3) ℂ)) (i k : Fin 3) : l.sum i k = (l.map fun m => m i k).sum := by
  induction l with
  | nil => simp
  | cons m l ih => rw [List.sum_cons, Matrix.add_apply, ih, List.map_cons, List.sum_cons]

/-- The matrix of a channel is that of the specification. -/
theorem kOf_matrix (d : Rm) (E : ℝ) (l : ℤ) (c : ℝ × ℝ) : (kOf d.spin E (pen d.toBase l E) l (rmDict d fun _ => none) c).matrix = kMatrix d E l c := by
  rw [kOf_dict, matrix_rows]
  have h0 : KState.matrix ⟨0, 0, 0, 0, 0, 0, false⟩ = 0 := by
    ext i k
    fin_cases i <;> fin_cases k <;> rfl
  rw [h0, zero_add]
  ext i k
  rw [sum_apply, List.map_map, sum_filter_zero (fun q : RmPrep => q.l = l ∧ |q.j| = c.2), List.map_map]
  unfold kMatrix
  congr 1
  apply List.map_congr_left
  intro r _
  simp only [Function.comp]
  show (if r.l = l ∧ |r.j| = c.2 then part E (pen d.toBase l E) (smin d.spin) (smax d.spin) c.1 l (rmPrepared d.toBase r) i k else 0) = _
  have es : smin d.spin = |d.spin - 1 / 2| := by unfold smin; norm_num
  have eb : smax d.spin = d.spin + 1 / 2 := by unfold smax; norm_num
  by_cases h1 : r.l = l ∧ |r.j| = c.2
  · rw [if_pos h1]
    by_cases h2 : Feeds d.spin l c r
    · rw [if_pos h2]
      have : ¬(0 < l ∧ ((r.j < 0 ∧ c.1 ≠ smin d.spin) ∨ (0 < r.j ∧ c.1 ≠ smax d.spin))) := by
        rintro ⟨hl, h3 | h3⟩
        · exact h3.2 (by rw [es]; exact (h2.2.2 hl).1 h3.1)
        · exact h3.2 (by rw [eb]; exact (h2.2.2 hl).2 h3.1)
      have hpart : part E (pen d.toBase l E) (smin d.spin) (smax d.spin) c.1 l (rmPrepared d.toBase r) i k =
          ((![√(pen d.toBase l E * (rmPrepared d.toBase r).gn / (rmPrepared d.toBase r).p), signedRoot (rmPrepared d.toBase r).gfa, signedRoot (rmPrepared d.toBase r).gfb] : Fin 3 → ℝ) i : ℂ) *
          (![√(pen d.toBase l E * (rmPrepared d.toBase r).gn / (rmPrepared d.toBase r).p), signedRoot (rmPrepared d.toBase r).gfa, signedRoot (rmPrepared d.toBase r).gfb] : Fin 3 → ℝ) k *
          (0.5 * I / ((r.energy : ℂ) - E - 0.5 * I * r.gg)) := if_neg this
      rw [hpart]
      have e1 : pen d.toBase l E * r.gn / pen d.toBase r.l r.energy = r.gn * (pen d.toBase r.l E / pen d.toBase r.l r.energy) := by rw [h1.1]; ring
      have ev : (![√(pen d.toBase l E * (rmPrepared d.toBase r).gn / (rmPrepared d.toBase r).p), signedRoot (rmPrepared d.toBase r).gfa, signedRoot (rmPrepared d.toBase r).gfb] : Fin 3 → ℝ) =
          amplitude d.toBase r E := by
        unfold amplitude
        show ![√(pen d.toBase l E * r.gn / pen d.toBase r.l r.energy), signedRoot r.gfa, signedRoot r.gfb] = _
        rw [e1, signedRoot_eq, signedRoot_eq]
      rw [ev]
      have e5 : (0.5 : ℂ) = 1 / 2 := by norm_num
      rw [e5]
      have e6 : ((r.energy : ℂ) - E - 1 / 2 * I * r.gg) = (r.energy - E - I * r.gg / 2) := by ring
      rw [e6]
      ring
    · rw [if_neg h2]
      unfold part
      have : 0 < l ∧ ((r.j < 0 ∧ c.1 ≠ smin d.spin) ∨ (0 < r.j ∧ c.1 ≠ smax d.spin)) := by
        by_contra h3
        apply h2
        refine ⟨h1.1, h1.2, fun hl => ⟨fun hj => ?_, fun hj => ?_⟩⟩
        · by_contra h4
          exact h3 ⟨hl, .inl ⟨hj, by rw [es]; exact h4⟩⟩
        · by_contra h4
          exact h3 ⟨hl, .inr ⟨hj, by rw [eb]; exact h4⟩⟩
      exact if_pos this
  · rw [if_neg h1, if_neg fun h => h1 ⟨h.1, h.2.1⟩]

/-! ### Cross sections of a channel -/

theorem matrix_symm (t : KState) : t.matrix.transpose = t.matrix := by
  ext i k
  fin_cases i <;> fin_cases k <;> rfl

theorem inv_symm (t : KState) (i k : Fin 3) : (1 - t.matrix)⁻¹ i k = (1 - t.matrix)⁻¹ k i := by
  have : ((1 - t.matrix)⁻¹).transpose = (1 - t.matrix)⁻¹ := by
    rw [Matrix.transpose_nonsing_inv, Matrix.transpose_sub, Matrix.transpose_one, matrix_symm]
  exact (congrFun (congrFun this k) i).symm ▸ rfl

theorem norm_phase (x : ℝ) : ‖exp (-(I * x))‖ = 1 := by
  rw [norm_exp]
  simp

theorem collision_00 (φ : ℝ) (K : Matrix (Fin 3) (Fin 3) ℂ) : collision φ K 0 0 = exp (-2 * I * φ) * (2 * (1 - K)⁻¹ 0 0 - 1) := by
  unfold collision
  simp only [Matrix.cons_val_zero, Matrix.one_apply_eq]
  congr 2
  ring

theorem norm_collision (φ : ℝ) (K : Matrix (Fin 3) (Fin 3) ℂ) {k : Fin 3} (hk : k ≠ 0) : ‖collision φ K 0 k‖ ^ 2 = 4 * ‖(1 - K)⁻¹ 0 k‖ ^ 2 := by
  unfold collision
  simp only []
  rw [Matrix.one_apply_ne (Ne.symm hk), sub_zero, norm_mul, norm_mul, ← ofReal_add, norm_phase, one_mul, mul_pow]
  norm_num

theorem inv_plain {t : KState} (h : Plain t) (hf : t.fission = false) (h1 : 1 - t.k00 ≠ 0) : (1 - t.matrix)⁻¹ = !![(1 - t.k00)⁻¹, 0, 0; 0, 1, 0; 0, 0, 1] := by
  obtain ⟨e1, e2, e3, e4, e5⟩ := h hf
  apply Matrix.inv_eq_right_inv
  ext i k
  fin_cases i <;> fin_cases k <;> simp [KState.matrix, Matrix.mul_apply, Fin.sum_univ_three, e1, e2, e3, e4, e5, h1]

theorem pow_four {φ : ℝ} (h : |φ| < 3e-4) : φ ^ 4 ≤ 81e-16 := by
  have h2 : φ ^ 2 ≤ 9e-8 := by
    rw [← sq_abs]
    nlinarith [abs_nonneg φ, h]
  have : φ ^ 4 = φ ^ 2 * φ ^ 2 := by ring
  rw [this]
  nlinarith [sq_nonneg φ]

theorem series_elastic {g ε φ x : ℝ} {u : ℂ} (hg : 0 ≤ g) (hu : normSq u ≤ 1) (hδ : |x - (1 - u.re)| ≤ φ ^ 4) (hs : |φ| < 3e-4) (hε : 5e-14 ≤ ε) :
    |g * (x * x + u.im ^ 2) - g * ‖1 - u‖ ^ 2| ≤ ε * g := by
  have h4 := pow_four hs
  obtain ⟨hr1, hr2⟩ := re_bounds hu
  obtain ⟨d1, d2⟩ := abs_le.mp hδ
  have e : g * (x * x + u.im ^ 2) - g * ‖1 - u‖ ^ 2 = g * ((x - (1 - u.re)) * (x + (1 - u.re))) := by
    rw [normSq_one_sub, normSq_apply]
    ring
  rw [e, abs_mul, abs_of_nonneg hg, mul_comm]
  apply mul_le_mul_of_nonneg_right _ hg
  rw [abs_mul]
  have h5 : |x + (1 - u.re)| ≤ 5 := by
    rw [abs_le]
    constructor <;> linarith
  calc _ ≤ 81e-16 * 5 := mul_le_mul (hδ.trans h4) h5 (abs_nonneg _) (by norm_num)
    _ ≤ ε := by linarith

theorem series_capture {g ε φ x : ℝ} {u : ℂ} (hg : 0 ≤ g) (hu : normSq u ≤ 1) (hδ : |x - (1 - u.re)| ≤ φ ^ 4) (hs : |φ| < 3e-4) (hε : 5e-14 ≤ ε) :
    |2 * g * x - g * (x * x + u.im ^ 2) - g * (1 - ‖u‖ ^ 2)| ≤ ε * g := by
  have h4 := pow_four hs
  obtain ⟨hr1, hr2⟩ := re_bounds hu
  obtain ⟨d1, d2⟩ := abs_le.mp hδ
  have e : 2 * g * x - g * (x * x + u.im ^ 2) - g * (1 - ‖u‖ ^ 2) = g * ((x - (1 - u.re)) * (1 + u.re - x)) := by
    rw [← normSq_eq_norm_sq, normSq_apply]
    ring
  rw [e, abs_mul, abs_of_nonneg hg, mul_comm]
  apply mul_le_mul_of_nonneg_right _ hg
  rw [abs_mul]
  have h5 : |1 + u.re - x| ≤ 5 := by
    rw [abs_le]
    constructor <;> linarith
  calc _ ≤ 81e-16 * 5 := mul_le_mul (hδ.trans h4) h5 (abs_nonneg _) (by norm_num)
    _ ≤ ε := by linarith

theorem close_self {a b ε g : ℝ} (h : a = b) (hε : 0 ≤ ε) (hg : 0 ≤ g) : |a - b| ≤ ε * g := by
  rw [h, sub_self, abs_zero]
  exact mul_nonneg hε hg

/-- What a channel adds, from the collision matrix, up to the error of the series. -/
theorem channel_collision {t : KState} (h : Dissipative t) (hp : Plain t) {φ ε : ℝ} (hε : 0 ≤ ε) (hφ : |φ| < 3e-4 → 5e-14 ≤ ε) (Isp J : ℝ) (hg : 0 ≤ (2 * J + 1) / (4 * Isp + 2)) :
    ∃ x, rmChannel Isp φ J t = .ok x ∧ |x.elastic - (2 * J + 1) / (4 * Isp + 2) * ‖1 - collision φ t.matrix 0 0‖ ^ 2| ≤ ε * ((2 * J + 1) / (4 * Isp + 2)) ∧
      x.fission = (2 * J + 1) / (4 * Isp + 2) * (‖collision φ t.matrix 0 1‖ ^ 2 + ‖collision φ t.matrix 0 2‖ ^ 2) ∧
      |x.total - x.elastic - (2 * J + 1) / (4 * Isp + 2) * (1 - ‖collision φ t.matrix 0 0‖ ^ 2)| ≤ ε * ((2 * J + 1) / (4 * Isp + 2)) := by
  have hcap : ∀ (g : ℝ) (u : ℂ), 2 * g * (1 - u.re) - g * ‖1 - u‖ ^ 2 = g * (1 - ‖u‖ ^ 2) := by
    intro g u
    rw [normSq_one_sub, normSq_eq_norm_sq]
    ring
  rw [norm_collision φ t.matrix (by decide : (1 : Fin 3) ≠ 0), norm_collision φ t.matrix (by decide : (2 : Fin 3) ≠ 0), collision_00]
  unfold rmChannel
  cases hf : t.fission with
  | true =>
    simp only [if_true]
    rw [if_neg (det_ne h)]
    refine ⟨_, rfl, close_self rfl hε hg, ?_, close_self (hcap _ _) hε hg⟩
    simp only []
    rw [inv_symm t 1 0, inv_symm t 2 0]
    ring
  | false =>
    simp only [Bool.false_eq_true, if_false]
    have hk := k00_re h
    have h1 : 1 - t.k00 ≠ 0 := by
      intro e
      have := congrArg re e
      rw [sub_re, one_re, zero_re] at this
      linarith
    rw [inv_plain hp hf h1]
    have e : (2 * (!![(1 - t.k00)⁻¹, 0, 0; 0, 1, 0; 0, 0, 1] : Matrix (Fin 3) (Fin 3) ℂ) 0 0 - 1) = 2 / (1 - t.k00) - 1 := by
      rw [div_eq_mul_inv]
      rfl
    rw [e]
    split
    · rename_i hs
      have hδ := series_close hk (φ := φ) hs.2
      have hu := normSq_u hk φ
      refine ⟨_, rfl, ?_, by simp, ?_⟩ <;> simp only [] <;> generalize exp (-2 * I * φ) * (2 / (1 - t.k00) - 1) = u at hδ hu ⊢ <;>
        generalize 2 * (-t.k00.re + (t.k00.re * t.k00.re + t.k00.im * t.k00.im) * (1 - φ * φ) + φ * φ - Real.sin (2 * φ) * t.k00.im) /
          ((1 - t.k00.re) * (1 - t.k00.re) + t.k00.im * t.k00.im) = x at hδ ⊢ <;> generalize (2 * J + 1) / (4 * Isp + 2) = g at hg ⊢
      · exact series_elastic hg hu hδ hs.2 (hφ hs.2)
      · exact series_capture hg hu hδ hs.2 (hφ hs.2)
    · refine ⟨_, rfl, close_self rfl hε hg, by simp, close_self (hcap _ _) hε hg⟩

theorem plain_kOf (d : Rm) (E P : ℝ) (l : ℤ) (c : ℝ × ℝ) : Plain (kOf d.spin E P l (rmDict d fun _ => none) c) := by
  rw [kOf_dict]
  exact plain_rows _ _ fun _ => ⟨rfl, rfl, rfl, rfl, rfl⟩

theorem exp_phase {b : Base} {E : ℝ} {l : ℤ} {e : ℝ} (h : RowOk b E l e) (K : Matrix (Fin 3) (Fin 3) ℂ) :
    collision (phaseshift l (waveNumber b.awr E * radius b.scattering l E)) K 0 0 = collision (phi b l E) K 0 0 ∧
    ∀ k : Fin 3, k ≠ 0 → ‖collision (phaseshift l (waveNumber b.awr E * radius b.scattering l E)) K 0 k‖ = ‖collision (phi b l E) K 0 k‖ := by
  constructor
  · rw [collision_00, collision_00]
    congr 1
    have := (C193_hard_sphere_partial h.1 h.2.1 (waveNumber b.awr E * radius b.scattering l E)).2.2
    have e : ∀ x : ℝ, exp (-2 * I * x) = (exp (2 * I * x))⁻¹ := by
      intro x
      rw [← exp_neg]
      congr 1
      ring
    rw [e, e, this]
    rfl
  · intro k hk
    have h1 := norm_collision (phaseshift l (waveNumber b.awr E * radius b.scattering l E)) K hk
    have h2 := norm_collision (phi b l E) K hk
    have h3 := h1.trans h2.symm
    exact (pow_left_inj₀ (norm_nonneg _) (norm_nonneg _) two_ne_zero).mp h3

theorem fold_sums {α : Type} {f : α → Except PyErr RmSum} {A B C W : α → ℝ} (cs : List α) :
    (∀ c ∈ cs, ∃ x, f c = .ok x ∧ |x.elastic - A c| ≤ W c ∧ x.fission = B c ∧ |x.total - x.elastic - C c| ≤ W c) → ∀ t : RmSum,
    ∃ t', cs.foldlM (fun (t : RmSum) c => do
      let d ← f c
      return (⟨t.elastic + d.elastic, t.total + d.total, t.fission + d.fission⟩ : RmSum)) t = .ok t' ∧
      |t'.elastic - (t.elastic + (cs.map A).sum)| ≤ (cs.map W).sum ∧ t'.fission = t.fission + (cs.map B).sum ∧
      |t'.total - t'.elastic - (t.total - t.elastic + (cs.map C).sum)| ≤ (cs.map W).sum := by
  induction cs with
  | nil => intro _ t; exact ⟨t, rfl, by simp, by simp, by simp⟩
  | cons c cs ih =>
    intro h t
    obtain ⟨x, e, e1, e2, e3⟩ := h c List.mem_cons_self
    obtain ⟨t', f1, f2, f3, f4⟩ := ih (fun c hc => h c (List.mem_cons_of_mem _ hc)) ⟨t.elastic + x.elastic, t.total + x.total, t.fission + x.fission⟩
    refine ⟨t', ?_, ?_, ?_, ?_⟩
    · rw [List.foldlM_cons, e]
      exact f1
    · simp only [List.map_cons, List.sum_cons] at f2 ⊢
      rw [abs_le] at *
      constructor <;> linarith
    · rw [f3, List.map_cons, List.sum_cons, e2]; ring
    · simp only [List.map_cons, List.sum_cons] at f4 ⊢
      rw [abs_le] at *
      constructor <;> linarith

/-- The error allowed for: none away from the series. -/
def Tolerance (d : Rm) (E ε : ℝ) : Prop := 0 ≤ ε ∧ (5e-14 ≤ ε ∨ NotSmall d E)

/-- The three sums of an l. -/
theorem at_sums {d : Rm} {E ε : ℝ} (h : RmOk d E) (hε : Tolerance d E ε) {r : RmRow} (hr : r ∈ d.rows) (t : RmSum) :
    ∃ t', rmAt d.toBase (rmDict d fun _ => none) E t r.l = .ok t' ∧
      |t'.elastic - (t.elastic + ∑ᶠ c ∈ Channels d.spin r.l, weight d.spin c.2 * ‖1 - collision (phi d.toBase r.l E) (kMatrix d E r.l c) 0 0‖ ^ 2)| ≤ ε * (2 * r.l + 1) ∧
      t'.fission = t.fission + ∑ᶠ c ∈ Channels d.spin r.l, weight d.spin c.2 *
        (‖collision (phi d.toBase r.l E) (kMatrix d E r.l c) 0 1‖ ^ 2 + ‖collision (phi d.toBase r.l E) (kMatrix d E r.l c) 0 2‖ ^ 2) ∧
      |t'.total - t'.elastic - (t.total - t.elastic + ∑ᶠ c ∈ Channels d.spin r.l, weight d.spin c.2 * (1 - ‖collision (phi d.toBase r.l E) (kMatrix d E r.l c) 0 0‖ ^ 2))| ≤
        ε * (2 * r.l + 1) := by
  have hok := (h.2 r hr).1
  have hφ : |phaseshift r.l (waveNumber d.awr E * radius d.scattering r.l E)| < 3e-4 → 5e-14 ≤ ε := fun hlt => by
    rcases hε.2 with h1 | h1
    · exact h1
    · exact absurd (h1 r hr) (not_le.mpr hlt)
  obtain ⟨n, hn⟩ := h.1.1
  obtain ⟨L, hL⟩ := Int.eq_ofNat_of_zero_le hok.1
  have hI : 0 ≤ d.spin := by rw [hn]; positivity
  obtain ⟨t', e, e1, e2, e3⟩ := fold_sums (f := fun c : ℝ × ℝ => rmChannel d.spin (phaseshift r.l (waveNumber d.awr E * radius d.scattering r.l E)) c.2
      (kOf d.spin E (pen d.toBase r.l E) r.l (rmDict d fun _ => none) c))
    (A := fun c => weight d.spin c.2 * ‖1 - collision (phi d.toBase r.l E) (kMatrix d E r.l c) 0 0‖ ^ 2)
    (B := fun c => weight d.spin c.2 * (‖collision (phi d.toBase r.l E) (kMatrix d E r.l c) 0 1‖ ^ 2 + ‖collision (phi d.toBase r.l E) (kMatrix d E r.l c) 0 2‖ ^ 2))
    (C := fun c => weight d.spin c.2 * (1 - ‖collision (phi d.toBase r.l E) (kMatrix d E r.l c) 0 0‖ ^ 2))
    (W := fun c => ε * ((2 * c.2 + 1) / (4 * d.spin + 2))) (channels d.spin r.l)
    (fun c hc => by
      have hJ := channels_nonneg hc
      obtain ⟨x, ex, x1, x2, x3⟩ := channel_collision (dissipative_kOf (I := d.spin) (E := E) (P := pen d.toBase r.l E) (l := r.l) (rmDict_gg h) c)
        (plain_kOf d E (pen d.toBase r.l E) r.l c) hε.1 hφ d.spin c.2 (by positivity)
      obtain ⟨p1, p2⟩ := exp_phase hok (kMatrix d E r.l c)
      have hw : (2 * c.2 + 1) / (4 * d.spin + 2) = weight d.spin c.2 := by unfold weight; congr 1; ring
      rw [kOf_matrix, p1] at x1 x3
      rw [kOf_matrix, hw, p2 1 (by decide), p2 2 (by decide)] at x2
      rw [← hw]
      exact ⟨x, ex, x1, hw ▸ x2, x3⟩) t
  have hW : ((channels d.spin r.l).map fun c => ε * ((2 * c.2 + 1) / (4 * d.spin + 2))).sum = ε * (2 * r.l + 1) := by
    rw [List.sum_map_mul_left, hn, hL, sum_channels]
    simp
  rw [hW] at e1 e3
  refine ⟨t', ?_, ?_, ?_, ?_⟩
  · unfold rmAt
    rw [waves_ok hok]
    exact e
  · rw [hn, hL, finsum_channels, ← hL, ← hn]; exact e1
  · rw [e2, hn, hL, finsum_channels]
  · rw [hn, hL, finsum_channels, ← hL, ← hn]; exact e3

theorem all_sums {d : Rm} {E ε : ℝ} (h : RmOk d E) (hε : Tolerance d E ε) (ls : List ℤ) : ∀ t : RmSum, (∀ l ∈ ls, ∃ r ∈ d.rows, r.l = l) →
    ∃ t', ls.foldlM (rmAt d.toBase (rmDict d fun _ => none) E) t = .ok t' ∧
      |t'.elastic - (t.elastic + (ls.map fun l : ℤ => ∑ᶠ c ∈ Channels d.spin l, weight d.spin c.2 * ‖1 - collision (phi d.toBase l E) (kMatrix d E l c) 0 0‖ ^ 2).sum)| ≤
        ε * (ls.map fun l : ℤ => 2 * (l : ℝ) + 1).sum ∧
      t'.fission = t.fission + (ls.map fun l : ℤ => ∑ᶠ c ∈ Channels d.spin l, weight d.spin c.2 *
        (‖collision (phi d.toBase l E) (kMatrix d E l c) 0 1‖ ^ 2 + ‖collision (phi d.toBase l E) (kMatrix d E l c) 0 2‖ ^ 2)).sum ∧
      |t'.total - t'.elastic - (t.total - t.elastic + (ls.map fun l : ℤ => ∑ᶠ c ∈ Channels d.spin l, weight d.spin c.2 *
        (1 - ‖collision (phi d.toBase l E) (kMatrix d E l c) 0 0‖ ^ 2)).sum)| ≤ ε * (ls.map fun l : ℤ => 2 * (l : ℝ) + 1).sum := by
  induction ls with
  | nil => intro t _; exact ⟨t, rfl, by simp, by simp, by simp⟩
  | cons l ls ih =>
    intro t hl
    obtain ⟨r, hr, rfl⟩ := hl l List.mem_cons_self
    obtain ⟨t1, e, e1, e2, e3⟩ := at_sums h hε hr t
    obtain ⟨t', e', f1, f2, f3⟩ := ih t1 fun q hq => hl q (List.mem_cons_of_mem _ hq)
    refine ⟨t', ?_, ?_, ?_, ?_⟩
    · rw [List.foldlM_cons, e]
      exact e'
    · simp only [List.map_cons, List.sum_cons, mul_add ε (2 * (r.l : ℝ) + 1)]
      rw [abs_le] at *
      constructor <;> linarith
    · rw [f2, e2, List.map_cons, List.sum_cons, add_assoc]
    · simp only [List.map_cons, List.sum_cons, mul_add ε (2 * (r.l : ℝ) + 1)]
      rw [abs_le] at *
      constructor <;> linarith

theorem sub_finsum (n L : ℕ) (F G : ℝ × ℝ → ℝ) : ∑ᶠ c ∈ Channels ((n : ℝ) / 2) (L : ℤ), F c - ∑ᶠ c ∈ Channels ((n : ℝ) / 2) (L : ℤ), G c =
    ∑ᶠ c ∈ Channels ((n : ℝ) / 2) (L : ℤ), (F c - G c) := by
  rw [finsum_channels, finsum_channels, finsum_channels, sub_eq_iff_eq_add, ← List.sum_map_add]
  simp

theorem collision_close {d : Rm} {E : ℝ} (h : RmOk d E) :
    ∃ x, xsOf rmF d E = .ok (.number x) ∧
      x.fission = Real.pi / waveNumber d.awr E ^ 2 * ∑ l ∈ lvalues (d.rows.map (·.l)), ∑ᶠ c ∈ Channels d.spin l, weight d.spin c.2 *
        (‖collision (phi d.toBase l E) (kMatrix d E l c) 0 1‖ ^ 2 + ‖collision (phi d.toBase l E) (kMatrix d E l c) 0 2‖ ^ 2) ∧
      ∀ ε, Tolerance d E ε → |x.elastic - Real.pi / waveNumber d.awr E ^ 2 * ∑ l ∈ lvalues (d.rows.map (·.l)), ∑ᶠ c ∈ Channels d.spin l, weight d.spin c.2 *
        ‖1 - collision (phi d.toBase l E) (kMatrix d E l c) 0 0‖ ^ 2| ≤ ε * unitarity d E ∧
      |x.capture - Real.pi / waveNumber d.awr E ^ 2 * ∑ l ∈ lvalues (d.rows.map (·.l)), ∑ᶠ c ∈ Channels d.spin l, weight d.spin c.2 *
        (1 - ‖collision (phi d.toBase l E) (kMatrix d E l c) 0 0‖ ^ 2 - ‖collision (phi d.toBase l E) (kMatrix d E l c) 0 1‖ ^ 2 -
          ‖collision (phi d.toBase l E) (kMatrix d E l c) 0 2‖ ^ 2)| ≤ ε * unitarity d E := by
  have hmem : ∀ l ∈ firsts [] (d.rows.map (·.l)), ∃ r ∈ d.rows, r.l = l := fun l hl => by
    rw [mem_firsts] at hl
    rcases hl with hl | hl
    · simp at hl
    · obtain ⟨r, hr, rfl⟩ := List.mem_map.mp hl
      exact ⟨r, hr, rfl⟩
  obtain ⟨t, e, -, e2, -⟩ := all_sums h (ε := 5e-14) ⟨by norm_num, .inl le_rfl⟩ (firsts [] (d.rows.map (·.l))) ⟨0, 0, 0⟩ hmem
  rw [firsts_sum] at e2
  simp only [zero_add] at e2
  have hev : rm d (firsts [] (d.rows.map (·.l))) (rmDict d fun _ => none) E = .ok ⟨t.elastic * (Real.pi / (waveNumber d.awr E * waveNumber d.awr E)),
      (t.total - t.elastic - t.fission) * (Real.pi / (waveNumber d.awr E * waveNumber d.awr E)), t.fission * (Real.pi / (waveNumber d.awr E * waveNumber d.awr E))⟩ := by
    unfold rm
    rw [e]
    rfl
  refine ⟨_, xsOf_ok (F := rmF) (prepareRm_ok h _) hev, ?_, ?_⟩
  · simp only []
    rw [e2, sq, mul_comm]
    rfl
  · intro ε hε
    obtain ⟨t', e', e1, -, e3⟩ := all_sums h hε (firsts [] (d.rows.map (·.l))) ⟨0, 0, 0⟩ hmem
    rw [e] at e'
    injection e' with e'
    subst e'
    rw [firsts_sum, firsts_sum] at e1 e3
    simp only [zero_add, sub_zero] at e1 e3
    have hK : 0 ≤ Real.pi / waveNumber d.awr E ^ 2 := div_nonneg Real.pi_pos.le (sq_nonneg _)
    have hun : ε * unitarity d E = ε * (∑ l ∈ lvalues (d.rows.map (·.l)), (2 * (l : ℝ) + 1)) * (Real.pi / waveNumber d.awr E ^ 2) := by
      unfold unitarity
      rw [mul_comm (Real.pi / _), mul_assoc]
    simp only [← sq]
    constructor
    · rw [mul_comm (Real.pi / _), ← sub_mul, abs_mul, abs_of_nonneg hK, hun]
      exact mul_le_mul_of_nonneg_right e1 hK
    · rw [mul_comm (Real.pi / _), ← sub_mul, abs_mul, abs_of_nonneg hK, hun]
      refine mul_le_mul_of_nonneg_right (le_of_eq_of_le ?_ e3) hK
      congr 1
      rw [e2, sub_right_comm, sub_sub (t.total - t.elastic) _ _, sub_right_inj]
      rw [← eq_sub_iff_add_eq, ← Finset.sum_sub_distrib]
      apply Finset.sum_congr rfl
      intro l hl
      obtain ⟨r, hr, rfl⟩ := hmem l (by rw [mem_firsts]; right; exact List.mem_toFinset.mp hl)
      obtain ⟨n, hn⟩ := h.1.1
      obtain ⟨L, hL⟩ := Int.eq_ofNat_of_zero_le (h.2 r hr).1.1
      rw [hn, hL, sub_finsum]
      congr 1
      funext c
      congr 1
      funext _
      ring

/-- C203. Reich-Moore cross sections are those of the collision matrix: `π/k² Σ g |1 - U|²` for elastic scattering, `π/k² Σ g |U|²` over the two fission channels, and for
capture what is missing from unitarity, summed over the l of the resonances and the channels of each. Fission is exact. Elastic scattering and capture are exact if no phase
shift is small; otherwise the code uses a series, whose error is at most 5e-14 of the limit of unitarity. -/
theorem C203_collision {d : Rm} {E : ℝ} (h : RmOk d E) :
    ∃ x elastic capture, xsOf rmF d E = .ok (.number x) ∧
      elastic = Real.pi / waveNumber d.awr E ^ 2 * ∑ l ∈ lvalues (d.rows.map (·.l)), ∑ᶠ c ∈ Channels d.spin l, weight d.spin c.2 *
        ‖1 - collision (phi d.toBase l E) (kMatrix d E l c) 0 0‖ ^ 2 ∧
      x.fission = Real.pi / waveNumber d.awr E ^ 2 * ∑ l ∈ lvalues (d.rows.map (·.l)), ∑ᶠ c ∈ Channels d.spin l, weight d.spin c.2 *
        (‖collision (phi d.toBase l E) (kMatrix d E l c) 0 1‖ ^ 2 + ‖collision (phi d.toBase l E) (kMatrix d E l c) 0 2‖ ^ 2) ∧
      capture = Real.pi / waveNumber d.awr E ^ 2 * ∑ l ∈ lvalues (d.rows.map (·.l)), ∑ᶠ c ∈ Channels d.spin l, weight d.spin c.2 *
        (1 - ‖collision (phi d.toBase l E) (kMatrix d E l c) 0 0‖ ^ 2 - ‖collision (phi d.toBase l E) (kMatrix d E l c) 0 1‖ ^ 2 -
          ‖collision (phi d.toBase l E) (kMatrix d E l c) 0 2‖ ^ 2) ∧
      |x.elastic - elastic| ≤ 5e-14 * unitarity d E ∧ |x.capture - capture| ≤ 5e-14 * unitarity d E ∧ (NotSmall d E → x.elastic = elastic ∧ x.capture = capture) := by
  obtain ⟨x, ex, ef, ea⟩ := collision_close h
  refine ⟨x, _, _, ex, rfl, ef, rfl, (ea _ ⟨by norm_num, .inl le_rfl⟩).1, (ea _ ⟨by norm_num, .inl le_rfl⟩).2, fun hs => ?_⟩
  obtain ⟨h1, h2⟩ := ea 0 ⟨le_rfl, .inr hs⟩
  rw [zero_mul] at h1 h2
  exact ⟨sub_eq_zero.mp (abs_nonpos_iff.mp h1), sub_eq_zero.mp (abs_nonpos_iff.mp h2)⟩

end
end ASAPy.Recon
