import Verif.EigenFix.Model
import Verif.EigenFix.Spec
import Mathlib.Analysis.Matrix.Spectrum
import Mathlib.Algebra.BigOperators.Ring.Finset
import Mathlib.Tactic.Linarith
import Mathlib.Tactic.Positivity
import Mathlib.Tactic.NormNum

/-! # C36 and C37: what the eigenvalue repair guarantees -/

set_option linter.unusedSectionVars false

namespace ASAPy.EigenFix
open Matrix

section sub
variable {ι : Type*} [Fintype ι] [DecidableEq ι] {A P : Matrix ι ι ℝ} {eigs : ι → ℝ}

/-- Coordinates in the eigenbasis. -/
def coord (P : Matrix ι ι ℝ) (x : ι → ℝ) : ι → ℝ := fun k => ∑ i, P i k * x i

theorem entry (d : ι → ℝ) (P : Matrix ι ι ℝ) (i j : ι) : (P * diagonal d * Pᵀ) i j = ∑ k, d k * (P i k * P j k) := by
  rw [Matrix.mul_apply]
  simp only [mul_diagonal, transpose_apply]
  exact Finset.sum_congr rfl fun k _ => by ring

theorem quad (d : ι → ℝ) (P : Matrix ι ι ℝ) (x : ι → ℝ) :
    ∑ i, ∑ j, x i * (P * diagonal d * Pᵀ) i j * x j = ∑ k, d k * coord P x k ^ 2 := by
  simp only [entry, coord, pow_two, Finset.sum_mul, Finset.mul_sum]
  rw [Finset.sum_comm' (t' := Finset.univ) (s' := fun _ => Finset.univ) (by simp)]
  rw [← Finset.sum_comm]
  rw [Finset.sum_comm]
  conv_lhs =>
    enter [2, i]
    rw [Finset.sum_comm]
  rw [Finset.sum_comm]
  refine Finset.sum_congr rfl fun k _ => Finset.sum_congr rfl fun i _ => Finset.sum_congr rfl fun j _ => ?_
  ring

theorem orth' (h : Pᵀ * P = 1) : P * Pᵀ = 1 := mul_eq_one_comm.mp h

theorem norm_coord (h : Pᵀ * P = 1) (x : ι → ℝ) : ∑ k, coord P x k ^ 2 = ∑ i, x i ^ 2 := by
  have := quad (fun _ => 1) P x
  have h1 : diagonal (fun _ : ι => (1 : ℝ)) = 1 := diagonal_one
  rw [h1, Matrix.mul_one, orth' h] at this
  simp only [one_mul] at this
  rw [← this]
  refine Finset.sum_congr rfl fun i _ => ?_
  simp [Matrix.one_apply, pow_two]

theorem row_norm (h : Pᵀ * P = 1) (i : ι) : ∑ k, P i k ^ 2 = 1 := by
  have := congrFun (congrFun (orth' h) i) i
  simp only [Matrix.mul_apply, transpose_apply, one_apply_eq] at this
  rw [← this]
  exact Finset.sum_congr rfl fun k _ => by ring

theorem inv_eq (h : Pᵀ * P = 1) : P⁻¹ = Pᵀ := Matrix.inv_eq_left_inv h

theorem sum_sq_pos {x : ι → ℝ} (hx : x ≠ 0) : 0 < ∑ i, x i ^ 2 := by
  obtain ⟨i, hi⟩ := Function.ne_iff.mp hx
  exact Finset.sum_pos' (fun _ _ => sq_nonneg _) ⟨i, Finset.mem_univ i, by have : x i ≠ 0 := hi; positivity⟩

theorem isPosDef_of_pos {d : ι → ℝ} (hd : ∀ k, 0 < d k) (h : Pᵀ * P = 1) : IsPosDef (P * diagonal d * Pᵀ) := by
  refine ⟨?_, ?_⟩
  · ext i j
    simp only [Matrix.transpose_apply, entry]
    exact Finset.sum_congr rfl fun k _ => by ring
  · intro x hx
    rw [quad]
    have hpos : 0 < ∑ k, coord P x k ^ 2 := by rw [norm_coord h]; exact sum_sq_pos hx
    obtain ⟨k, _, hk⟩ := Finset.exists_lt_of_sum_lt (s := Finset.univ) (f := fun _ : ι => (0 : ℝ)) (g := fun k => coord P x k ^ 2)
      (by simpa using hpos)
    exact Finset.sum_pos' (fun k _ => mul_nonneg (hd k).le (sq_nonneg _)) ⟨k, Finset.mem_univ k, mul_pos (hd k) hk⟩

/-- Eigenvectors show that the quadratic form takes the eigenvalues. -/
theorem quad_col (h : IsEigh A eigs P) (k : ι) :
    (fun i => P i k) ≠ 0 ∧ ∑ i, P i k ^ 2 = 1 ∧ ∑ i, ∑ j, P i k * A i j * P j k = eigs k := by
  have hc : ∀ l, coord P (fun i => P i k) l = if l = k then 1 else 0 := by
    intro l
    have := congrFun (congrFun h.orth l) k
    simp only [Matrix.mul_apply, transpose_apply, Matrix.one_apply] at this
    exact this
  have h2 : ∑ i, P i k ^ 2 = 1 := by
    rw [← norm_coord h.orth (fun i => P i k)]
    simp [hc]
  refine ⟨?_, h2, ?_⟩
  · intro h0
    have : ∀ i, P i k = 0 := fun i => congrFun h0 i
    simp [this] at h2
  · rw [h.dec, quad eigs P (fun i => P i k)]
    simp [hc]

theorem eigsAbove_iff (h : IsEigh A eigs P) (c : ℝ) : EigsAbove c A ↔ ∀ k, c < eigs k := by
  constructor
  · intro ha k
    obtain ⟨h1, h2, h3⟩ := quad_col h k
    have := ha _ h1
    rw [h2, h3] at this
    linarith
  · intro hk x hx
    have hp := isPosDef_of_pos (d := fun k => eigs k - c) (fun k => sub_pos.mpr (hk k)) h.orth
    have := hp.2 x hx
    rw [quad] at this
    rw [h.dec, quad, ← norm_coord h.orth x, Finset.mul_sum]
    simp only [sub_mul, Finset.sum_sub_distrib] at this
    linarith

theorem eigsAtLeast_iff (h : IsEigh A eigs P) (c : ℝ) : EigsAtLeast c A ↔ ∀ k, c ≤ eigs k := by
  constructor
  · intro ha k
    obtain ⟨h1, h2, h3⟩ := quad_col h k
    have := ha (fun i => P i k)
    rw [h2, h3] at this
    linarith
  · intro hk x
    rw [h.dec, quad, ← norm_coord h.orth x, Finset.mul_sum]
    exact Finset.sum_le_sum fun k _ => mul_le_mul_of_nonneg_right (hk k) (sq_nonneg _)

variable [Nonempty ι]

theorem exists_eig_ge (h : IsEigh A eigs P) (i : ι) : ∃ k, A i i ≤ eigs k := by
  by_contra hne
  push Not at hne
  have hd : A i i = ∑ k, eigs k * (P i k * P i k) := by
    conv_lhs => rw [h.dec, entry]
  have hrow := row_norm h.orth i
  obtain ⟨k0, _, hk0⟩ := Finset.exists_lt_of_sum_lt (s := Finset.univ) (f := fun _ : ι => (0 : ℝ)) (g := fun k => P i k ^ 2)
    (by simp [hrow])
  have : ∑ k, eigs k * (P i k * P i k) < ∑ k, A i i * (P i k ^ 2) := by
    apply Finset.sum_lt_sum
    · intro k _
      have := (hne k).le
      nlinarith [sq_nonneg (P i k)]
    · exact ⟨k0, Finset.mem_univ _, by have := hne k0; nlinarith⟩
  rw [← Finset.mul_sum, hrow, mul_one, ← hd] at this
  exact lt_irrefl _ this

theorem newEigs_pos (h : IsEigh A eigs P) {i : ι} (hi : 0 < A i i) (k : ι) : 0 < newEigs eigs k := by
  unfold newEigs
  split_ifs with hk
  · obtain ⟨k', hk'⟩ := exists_eig_ge h i
    have := Finset.le_sup' eigs (Finset.mem_univ k')
    exact lt_min (mul_pos (by norm_num) (by linarith)) (by norm_num)
  · push Not at hk
    exact lt_trans (by norm_num) hk

theorem fixSub_posDef (h : IsEigh A eigs P) (hA : ∃ i, 0 < A i i) : IsPosDef (fixSub A eigs P) := by
  obtain ⟨i, hi⟩ := hA
  unfold fixSub
  split_ifs with hm
  · rw [inv_eq h.orth]
    exact isPosDef_of_pos (newEigs_pos h hi) h.orth
  · push Not at hm
    have : ∀ k, (0 : ℝ) < eigs k := by
      intro k
      have := (Finset.lt_inf'_iff Finset.univ_nonempty (f := eigs)).mp hm k (Finset.mem_univ k)
      exact lt_trans (by norm_num) this
    rw [h.dec]
    exact isPosDef_of_pos this h.orth

theorem fixSub_unchanged (h : IsEigh A eigs P) (hA : EigsAbove 1e-8 A) : fixSub A eigs P = A := by
  unfold fixSub
  rw [if_neg]
  push Not
  rw [Finset.lt_inf'_iff]
  intro k _
  exact (eigsAbove_iff h _).mp hA k

theorem fixSub_diag (h : IsEigh A eigs P) (hA : ∃ i, 1 ≤ A i i) {c : ℝ} (hc : c ≤ 1e-8) (hmin : EigsAtLeast c A) (i : ι) :
    A i i ≤ fixSub A eigs P i i ∧ fixSub A eigs P i i ≤ A i i + (1e-8 - c) := by
  obtain ⟨i0, hi0⟩ := hA
  unfold fixSub
  split_ifs with hm
  · have hsup : min (1e-8 * Finset.univ.sup' Finset.univ_nonempty eigs) (1e-8 : ℝ) = 1e-8 := by
      obtain ⟨k', hk'⟩ := exists_eig_ge h i0
      have := Finset.le_sup' eigs (Finset.mem_univ k')
      apply min_eq_right
      nlinarith
    have hnew : ∀ k, eigs k ≤ newEigs eigs k ∧ newEigs eigs k ≤ eigs k + (1e-8 - c) := by
      intro k
      have := (eigsAtLeast_iff h c).mp hmin k
      unfold newEigs
      split_ifs with hk
      · rw [hsup]; constructor <;> linarith
      · constructor <;> linarith
    have hd : A i i = ∑ k, eigs k * (P i k * P i k) := by
      conv_lhs => rw [h.dec, entry]
    rw [inv_eq h.orth, entry]
    constructor
    · rw [hd]
      exact Finset.sum_le_sum fun k _ => mul_le_mul_of_nonneg_right (hnew k).1 (mul_self_nonneg _)
    · have : ∑ k, newEigs eigs k * (P i k * P i k) ≤ ∑ k, (eigs k * (P i k * P i k) + (1e-8 - c) * P i k ^ 2) := by
        apply Finset.sum_le_sum
        intro k _
        have := mul_le_mul_of_nonneg_right (hnew k).2 (mul_self_nonneg (P i k))
        linarith
      rw [Finset.sum_add_distrib, ← Finset.mul_sum, row_norm h.orth, mul_one, ← hd] at this
      exact this
  · constructor <;> linarith

theorem fixSub_trace (h : IsEigh A eigs P) (hA : ∃ i, 1 ≤ A i i) (hbad : ¬ EigsAtLeast 1e-8 A) :
    ∑ i, A i i < ∑ i, fixSub A eigs P i i := by
  obtain ⟨i0, hi0⟩ := hA
  rw [eigsAtLeast_iff h] at hbad
  push Not at hbad
  obtain ⟨k0, hk0⟩ := hbad
  have hm : Finset.univ.inf' Finset.univ_nonempty eigs ≤ (1e-8 : ℝ) :=
    (Finset.inf'_le eigs (Finset.mem_univ k0)).trans hk0.le
  have hsup : min (1e-8 * Finset.univ.sup' Finset.univ_nonempty eigs) (1e-8 : ℝ) = 1e-8 := by
    obtain ⟨k', hk'⟩ := exists_eig_ge h i0
    have := Finset.le_sup' eigs (Finset.mem_univ k')
    apply min_eq_right
    nlinarith
  have htr : ∀ d : ι → ℝ, ∑ i, (P * diagonal d * Pᵀ) i i = ∑ k, d k := by
    intro d
    simp only [entry]
    rw [Finset.sum_comm]
    refine Finset.sum_congr rfl fun k _ => ?_
    rw [← Finset.mul_sum]
    have := (quad_col h k).2.1
    simp only [← pow_two, this, mul_one]
  have hl : ∑ i, A i i = ∑ k, eigs k := by
    rw [← htr eigs, ← h.dec]
  unfold fixSub
  rw [if_pos hm, inv_eq h.orth, htr, hl]
  apply Finset.sum_lt_sum
  · intro k _
    unfold newEigs
    split_ifs with hk
    · rw [hsup]; exact hk
    · exact le_rfl
  · refine ⟨k0, Finset.mem_univ _, ?_⟩
    unfold newEigs
    rw [if_pos hk0.le, hsup]
    exact hk0

end sub

/-- The contract of `eigh` can be met: every symmetric matrix has such a decomposition. -/
theorem exists_eigh {ι : Type*} [Fintype ι] [DecidableEq ι] {A : Matrix ι ι ℝ} (hA : A.IsSymm) : ∃ eigs P, IsEigh A eigs P := by
  have hH : A.IsHermitian := by
    unfold Matrix.IsHermitian
    rw [conjTranspose_eq_transpose_of_trivial]
    exact hA
  refine ⟨hH.eigenvalues, (hH.eigenvectorUnitary : Matrix ι ι ℝ), ?_, ?_⟩
  · have := Unitary.coe_star_mul_self hH.eigenvectorUnitary
    rwa [Matrix.star_eq_conjTranspose, conjTranspose_eq_transpose_of_trivial] at this
  · have := hH.spectral_theorem
    rw [Unitary.conjStarAlgAut_apply] at this
    rw [Matrix.star_eq_conjTranspose, conjTranspose_eq_transpose_of_trivial] at this
    exact this

section repair
variable {n : Nat} {A : Matrix (Fin n) (Fin n) ℝ}
  {eigh : EighFn}

/-- `eigh` keeps its contract on symmetric matrices. -/
def Contract (eigh : EighFn) : Prop :=
  ∀ (ι : Type) [Fintype ι] [DecidableEq ι] (A : Matrix ι ι ℝ), A.IsSymm → IsEigh A (eigh ι A).1 (eigh ι A).2

open Classical in
/-- There is an `eigh` that keeps its contract. -/
theorem exists_contract : ∃ eigh : EighFn, Contract eigh := by
  refine ⟨fun ι _ _ A => if h : A.IsSymm then ((exists_eigh h).choose, (exists_eigh h).choose_spec.choose) else (0, 0), ?_⟩
  intro ι _ _ A hA
  simp only [hA, dif_pos]
  exact (exists_eigh hA).choose_spec.choose_spec

theorem place_pos {F : Matrix (Sel A) (Sel A) ℝ} {i j : Fin n} (hi : 0 < A i i) (hj : 0 < A j j) :
    place A F i j = F ⟨i, hi⟩ ⟨j, hj⟩ := dif_pos ⟨hi, hj⟩

theorem place_neg {F : Matrix (Sel A) (Sel A) ℝ} {i j : Fin n} (h : ¬ (0 < A i i ∧ 0 < A j j)) : place A F i j = A i j :=
  dif_neg h

theorem sub_symm (hA : A.IsSymm) : (sub A).IsSymm := by
  ext i j
  exact congrFun (congrFun hA (i : Fin n)) (j : Fin n)

/-- **C36, general form.** For every symmetric matrix with at least one positive diagonal entry the repair succeeds; the
rows and columns with positive diagonal form a positive definite matrix, and all other entries are as before. -/
theorem C36_selected_posdef (he : Contract eigh) (hA : A.IsSymm) (hpos : ∃ i, 0 < A i i) :
    ∃ F, repair eigh A = .ok F ∧ F.IsSymm ∧ IsPosDef (fun i j : {i // 0 < A i i} => F i j) ∧
      ∀ i j, ¬ (0 < A i i ∧ 0 < A j j) → F i j = A i j := by
  classical
  obtain ⟨i0, hi0⟩ := hpos
  have hne : Nonempty (Sel A) := ⟨⟨i0, hi0⟩⟩
  have hs := he (Sel A) (sub A) (sub_symm hA)
  have hpd := fixSub_posDef hs ⟨⟨i0, hi0⟩, hi0⟩
  refine ⟨_, dif_pos hne, ?_, ?_, fun i j h => place_neg h⟩
  · ext i j
    simp only [Matrix.transpose_apply]
    by_cases h : 0 < A i i ∧ 0 < A j j
    · rw [place_pos h.1 h.2, place_pos h.2 h.1]
      exact congrFun (congrFun hpd.1 ⟨i, h.1⟩) ⟨j, h.2⟩
    · rw [place_neg h, place_neg (fun h' => h h'.symm)]
      exact congrFun (congrFun hA i) j
  · have : (fun i j : {i // 0 < A i i} => place A (fixSub (sub A) (eigh (Sel A) (sub A)).1 (eigh (Sel A) (sub A)).2) i j) =
        fixSub (sub A) (eigh (Sel A) (sub A)).1 (eigh (Sel A) (sub A)).2 := by
      funext i j
      exact place_pos i.2 j.2
    rw [this]
    convert hpd

/-- **C36.** For every dimension and every symmetric matrix with positive diagonal, the repaired matrix is symmetric
and positive definite. -/
theorem C36_posdef [NeZero n] (he : Contract eigh) (hA : A.IsSymm) (hpos : ∀ i, 0 < A i i) :
    ∃ F, repair eigh A = .ok F ∧ IsPosDef F := by
  obtain ⟨F, h1, h2, h3, _⟩ := C36_selected_posdef he hA ⟨0, hpos 0⟩
  refine ⟨F, h1, h2, ?_⟩
  intro x hx
  have hx' : (fun i : {i // 0 < A i i} => x i) ≠ 0 := by
    obtain ⟨i, hi⟩ := Function.ne_iff.mp hx
    exact Function.ne_iff.mpr ⟨⟨i, hpos i⟩, hi⟩
  have := h3.2 _ hx'
  let e : {i // 0 < A i i} ≃ Fin n := Equiv.subtypeUnivEquiv hpos
  have key : ∑ i, ∑ j, x i * F i j * x j = ∑ i : {i // 0 < A i i}, ∑ j : {i // 0 < A i i}, x i * F i j * x j := by
    rw [← Equiv.sum_comp e]
    refine Finset.sum_congr rfl fun i _ => ?_
    rw [← Equiv.sum_comp e]
    rfl
  rw [key]
  exact this

/-- **C36.** If all eigenvalues exceed 1e-8 the matrix is returned unchanged. -/
theorem C36_unchanged [NeZero n] (he : Contract eigh) (hA : A.IsSymm) (hab : EigsAbove 1e-8 A) :
    repair eigh A = .ok A := by
  classical
  have hpos : ∀ i, 0 < A i i := by
    intro i
    have := hab (Pi.single i 1) (by intro h; have := congrFun h i; simp at this)
    simp [Pi.single_apply] at this
    exact lt_trans (by norm_num) this
  have hne : Nonempty (Sel A) := ⟨⟨0, hpos 0⟩⟩
  have hs := he (Sel A) (sub A) (sub_symm hA)
  have hab' : EigsAbove 1e-8 (sub A) := by
    intro x hx
    let e : {i // 0 < A i i} ≃ Fin n := Equiv.subtypeUnivEquiv hpos
    have hx' : (fun i => x (e.symm i)) ≠ 0 := by
      obtain ⟨i, hi⟩ := Function.ne_iff.mp hx
      exact Function.ne_iff.mpr ⟨e i, by simpa using hi⟩
    have := hab _ hx'
    rw [← Equiv.sum_comp e, ← Equiv.sum_comp e] at this
    simp only [← Equiv.sum_comp e (fun j => _ * _ * x (e.symm j)), Equiv.symm_apply_apply] at this
    exact this
  unfold repair
  rw [dif_pos hne]
  congr 1
  funext i j
  rw [place_pos (hpos i) (hpos j), fixSub_unchanged hs hab']
  rfl

/-- **C37 (partial).** For every correlation matrix (symmetric, unit diagonal) whose eigenvalues are at least `c`
(`c ≤ 1e-8`), each diagonal entry of the repaired matrix lies between 1 and `1 + (1e-8 - c)`. Missing: it is not 1, see
`C37_trace_refuted`. -/
theorem C37_diagonal_partial [NeZero n] (he : Contract eigh) (hA : A.IsSymm) (hone : ∀ i, A i i = 1) {c : ℝ} (hc : c ≤ 1e-8)
    (hmin : EigsAtLeast c A) : ∃ F, repair eigh A = .ok F ∧ ∀ i, 1 ≤ F i i ∧ F i i ≤ 1 + (1e-8 - c) := by
  classical
  have hpos : ∀ i, 0 < A i i := fun i => by rw [hone]; norm_num
  have hne : Nonempty (Sel A) := ⟨⟨0, hpos 0⟩⟩
  have hs := he (Sel A) (sub A) (sub_symm hA)
  have hmin' : EigsAtLeast c (sub A) := by
    intro x
    let e : {i // 0 < A i i} ≃ Fin n := Equiv.subtypeUnivEquiv hpos
    have := hmin (fun i => x (e.symm i))
    rw [← Equiv.sum_comp e, ← Equiv.sum_comp e] at this
    simp only [← Equiv.sum_comp e (fun j => _ * _ * x (e.symm j)), Equiv.symm_apply_apply] at this
    exact this
  refine ⟨_, dif_pos hne, ?_⟩
  intro i
  rw [place_pos (hpos i) (hpos i)]
  have := fixSub_diag hs ⟨⟨0, hpos 0⟩, (hone 0).ge⟩ hc hmin' ⟨i, hpos i⟩
  have h1 : (sub A) ⟨i, hpos i⟩ ⟨i, hpos i⟩ = 1 := hone i
  rw [h1] at this
  exact this

/-- **C37 is false for every correlation matrix that needs repair**: if some eigenvalue is below 1e-8, some diagonal
entry of the repaired matrix is greater than 1. -/
theorem C37_trace_refuted [NeZero n] (he : Contract eigh) (hA : A.IsSymm) (hone : ∀ i, A i i = 1)
    (hbad : ¬ EigsAtLeast 1e-8 A) : ∃ F, repair eigh A = .ok F ∧ ∃ i, 1 < F i i := by
  classical
  have hpos : ∀ i, 0 < A i i := fun i => by rw [hone]; norm_num
  have hne : Nonempty (Sel A) := ⟨⟨0, hpos 0⟩⟩
  have hs := he (Sel A) (sub A) (sub_symm hA)
  have hbad' : ¬ EigsAtLeast 1e-8 (sub A) := by
    intro h
    apply hbad
    intro x
    let e : {i // 0 < A i i} ≃ Fin n := Equiv.subtypeUnivEquiv hpos
    have := h (fun i => x i)
    rw [← Equiv.sum_comp e, ← Equiv.sum_comp e]
    simp only [← Equiv.sum_comp e (fun j => _ * _ * x j)]
    exact this
  refine ⟨_, dif_pos hne, ?_⟩
  have := fixSub_trace hs ⟨⟨0, hpos 0⟩, (hone 0).ge⟩ hbad'
  obtain ⟨i, _, hi⟩ := Finset.exists_lt_of_sum_lt this
  refine ⟨i, ?_⟩
  rw [place_pos i.2 i.2]
  have h1 : (sub A) i i = 1 := hone i
  rw [h1] at hi
  exact hi

/-- Without any positive diagonal entry - also for an empty matrix - the repair raises. -/
theorem C36_no_diagonal (hA : ∀ i, ¬ 0 < A i i) : repair eigh A = .error .valueError := by
  unfold repair
  rw [dif_neg]
  rintro ⟨i, hi⟩
  exact hA i hi

/-- Fully correlated groups: a correlation matrix that needs repair. -/
def ones2 : Matrix (Fin 2) (Fin 2) ℝ := fun _ _ => 1

theorem ones2_meets : ones2.IsSymm ∧ (∀ i, ones2 i i = 1) ∧ ¬ EigsAtLeast 1e-8 ones2 ∧ EigsAtLeast 0 ones2 := by
  refine ⟨rfl, fun _ => rfl, ?_, ?_⟩
  · intro h
    have := h ![1, -1]
    simp [ones2, Fin.sum_univ_two] at this
    norm_num at this
  · intro x
    simp only [ones2, Fin.sum_univ_two]
    nlinarith [sq_nonneg (x 0 + x 1)]

/-- A correlation matrix that needs none. -/
noncomputable def half2 : Matrix (Fin 2) (Fin 2) ℝ := fun i j => if i = j then 1 else 1/2

example : half2.IsSymm ∧ EigsAbove 1e-8 half2 := by
  refine ⟨by ext i j; simp [half2, eq_comm], ?_⟩
  intro x hx
  have hp := sum_sq_pos hx
  simp only [half2, Fin.sum_univ_two] at hp ⊢
  norm_num
  nlinarith [sq_nonneg (x 0 + x 1)]

end repair

end ASAPy.EigenFix
