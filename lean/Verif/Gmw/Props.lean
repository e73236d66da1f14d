import Verif.Gmw.Model
import Mathlib.LinearAlgebra.Matrix.Symmetric
import Mathlib.LinearAlgebra.Matrix.NonsingularInverse
import Mathlib.Algebra.BigOperators.Field
import Mathlib.Tactic.Linarith
import Mathlib.Tactic.FieldSimp
import Mathlib.Tactic.Positivity
import Mathlib.Tactic.NormNum
import Mathlib.Tactic.FinCases

/-! # C40 and C41: the modified Cholesky factorisation -/

namespace ASAPy.Gmw
open Matrix
variable {n : Nat} {A : Matrix (Fin n) (Fin n) ℝ}

theorem eps_pos : 0 < EPS := by unfold EPS; positivity

theorem foldl_max_ge {α : Type*} (f : α → ℝ) (l : List α) : ∀ x : ℝ, x ≤ l.foldl (fun x i => max (f i) x) x ∧
    ∀ i ∈ l, f i ≤ l.foldl (fun x i => max (f i) x) x := by
  induction l with
  | nil => intro x; simp
  | cons a l ih =>
    intro x
    simp only [List.foldl_cons]
    obtain ⟨h1, h2⟩ := ih (max (f a) x)
    refine ⟨(le_max_right _ _).trans h1, ?_⟩
    intro i hi
    rcases List.mem_cons.mp hi with rfl | hi
    · exact (le_max_left _ _).trans h1
    · exact h2 i hi

theorem foldl_max_le {α : Type*} (f : α → ℝ) (l : List α) (c : ℝ) : ∀ x : ℝ, x ≤ c → (∀ i ∈ l, f i ≤ c) →
    l.foldl (fun x i => max (f i) x) x ≤ c := by
  induction l with
  | nil => intro x hx _; simpa using hx
  | cons a l ih =>
    intro x hx h
    simp only [List.foldl_cons]
    exact ih _ (max_le (h a (List.mem_cons_self ..)) hx) (fun i hi => h i (List.mem_cons_of_mem _ hi))

theorem abs_le_gamma (A : Matrix (Fin n) (Fin n) ℝ) (i : Fin n) : |A i i| ≤ gamma A :=
  (foldl_max_ge (fun i => |A i i|) (List.finRange n) 0).2 i (List.mem_finRange i)

theorem gamma_nonneg (A : Matrix (Fin n) (Fin n) ℝ) : 0 ≤ gamma A :=
  (foldl_max_ge (fun i => |A i i|) (List.finRange n) 0).1

theorem delta_pos (A : Matrix (Fin n) (Fin n) ℝ) : 0 < delta A :=
  mul_pos eps_pos (lt_of_lt_of_le one_pos (le_max_right _ _))

theorem beta_pos (A : Matrix (Fin n) (Fin n) ℝ) : 0 < beta A := by
  unfold beta
  split_ifs
  · exact Real.sqrt_pos.mpr (lt_of_lt_of_le eps_pos (le_max_right _ _))
  · exact Real.sqrt_pos.mpr (lt_of_lt_of_le eps_pos (le_max_right _ _))

theorem pivotValue_pos (A a : Matrix (Fin n) (Fin n) ℝ) (j : Fin n) : 0 < pivotValue A a j :=
  lt_of_lt_of_le (delta_pos A) (le_max_right _ _)

theorem le_pivotValue (A a : Matrix (Fin n) (Fin n) ℝ) (j : Fin n) : a j j ≤ pivotValue A a j :=
  (le_abs_self _).trans ((le_max_left _ _).trans (le_max_left _ _))

/-- The pivot is at or after `j`. -/
theorem le_pivot (a : Matrix (Fin n) (Fin n) ℝ) (j : Fin n) : j ≤ pivot a j := by
  unfold pivot
  have : ∀ (l : List (Fin n)) (q : Fin n), (∀ i ∈ l, j ≤ i) → j ≤ q →
      j ≤ l.foldl (fun q i => if |a q q| ≤ |a i i| then i else q) q := by
    intro l
    induction l with
    | nil => intro q _ hq; simpa using hq
    | cons b l ih =>
      intro q hl hq
      simp only [List.foldl_cons]
      apply ih _ (fun i hi => hl i (List.mem_cons_of_mem _ hi))
      split_ifs
      · exact hl b (List.mem_cons_self ..)
      · exact hq
  apply this _ _ _ le_rfl
  intro i hi
  simp only [List.mem_filter, decide_eq_true_eq] at hi
  exact hi.2.le

/-- The invariant after `k` rounds, with the permutation `σ` that `P` represents. -/
structure Inv (A : Matrix (Fin n) (Fin n) ℝ) (k : Nat) (s : State n) (σ : Equiv.Perm (Fin n)) : Prop where
  perm : ∀ i l, s.P i l = if i = σ l then 1 else 0
  recon : ∀ i l, A (σ i) (σ l) + (if i = l ∧ i.val < k then s.e i else 0) =
    ∑ m, s.r m i * s.r m l + if k ≤ i.val ∧ k ≤ l.val then s.a i l else 0
  symm : ∀ i l, k ≤ i.val → k ≤ l.val → s.a i l = s.a l i
  zero : ∀ m i, k ≤ m.val ∨ i < m → s.r m i = 0
  pos : ∀ m, m.val < k → 0 < s.r m m
  e_nonneg : ∀ m, m.val < k → 0 ≤ s.e m

theorem inv_init (hA : A.IsSymm) : Inv A 0 (init A) (Equiv.refl _) where
  perm := by intro i l; simp only [init, Matrix.one_apply, Equiv.refl_apply]; rfl
  recon := by intro i l; simp [init]
  symm := by intro i l _ _; exact (congrFun (congrFun hA i) l).symm
  zero := by intro m i _; simp [init]
  pos := by intro m hm; omega
  e_nonneg := by intro m hm; omega

theorem swap_ge {j q i : Fin n} (hq : j ≤ q) (hi : j.val ≤ i.val) : j.val ≤ (Equiv.swap j q i).val := by
  rw [Equiv.swap_apply_def]
  split_ifs
  · exact hq
  · exact le_rfl
  · exact hi

theorem swap_lt {j q i : Fin n} (hq : j ≤ q) (hi : i.val < j.val) : Equiv.swap j q i = i := by
  apply Equiv.swap_apply_of_ne_of_ne
  · rintro rfl; omega
  · rintro rfl; have : j.val ≤ i.val := hq; omega

theorem swap_ge_iff {j q : Fin n} (hq : j ≤ q) (i : Fin n) : j.val ≤ (Equiv.swap j q i).val ↔ j.val ≤ i.val := by
  constructor
  · intro h
    by_contra hc
    rw [swap_lt hq (by omega)] at h
    exact hc h
  · exact swap_ge hq

theorem inv_exchange {s : State n} {σ : Equiv.Perm (Fin n)} {j q : Fin n} (hq : j ≤ q) (h : Inv A j.val s σ) :
    Inv A j.val (exchange s j q) ((Equiv.swap j q).trans σ) where
  perm := by intro i l; exact h.perm i (Equiv.swap j q l)
  recon := by
    intro i l
    have := h.recon (Equiv.swap j q i) (Equiv.swap j q l)
    simp only [exchange, submatrix_apply, id, Equiv.trans_apply]
    simp only [swap_ge_iff hq] at this
    rw [← this]
    congr 1
    by_cases hil : i = l
    · subst hil
      by_cases hi : i.val < j.val
      · simp [hi, swap_lt hq hi]
      · have : ¬ (Equiv.swap j q i).val < j.val := by
          have := swap_ge hq (i := i) (by omega)
          omega
        simp [hi, this]
    · have : Equiv.swap j q i ≠ Equiv.swap j q l := fun h => hil ((Equiv.swap j q).injective h)
      simp [hil, this]
  symm := by
    intro i l hi hl
    exact h.symm _ _ (swap_ge hq hi) (swap_ge hq hl)
  zero := by
    intro m i hmi
    simp only [exchange, submatrix_apply, id]
    apply h.zero
    rcases hmi with hm | hm
    · exact Or.inl hm
    · by_cases hmj : j.val ≤ m.val
      · exact Or.inl hmj
      · right
        rw [swap_lt hq]
        · exact hm
        · have : i.val < m.val := hm
          omega
  pos := by
    intro m hm
    simp only [exchange, submatrix_apply, id, swap_lt hq hm]
    exact h.pos m hm
  e_nonneg := by intro m hm; exact h.e_nonneg m hm

theorem inv_eliminate {s : State n} {σ : Equiv.Perm (Fin n)} {j : Fin n} {dj : ℝ} (h : Inv A j.val s σ) (hd : 0 < dj)
    (hle : s.a j j ≤ dj) : Inv A (j.val + 1) (eliminate s j dj) σ := by
  have hsq : Real.sqrt dj ≠ 0 := (Real.sqrt_pos.mpr hd).ne'
  have hss : Real.sqrt dj * Real.sqrt dj = dj := Real.mul_self_sqrt hd.le
  have hmin : ∀ i k : Fin n, j.val ≤ i.val → j.val ≤ k.val → s.a (min i k) (max i k) = s.a i k := by
    intro i k hi hk
    rcases le_total i k with hl | hl
    · rw [min_eq_left hl, max_eq_right hl]
    · rw [min_eq_right hl, max_eq_left hl, h.symm _ _ hk hi]
  refine ⟨h.perm, ?_, ?_, ?_, ?_, ?_⟩
  · intro i l
    have hsum : ∑ m, (eliminate s j dj).r m i * (eliminate s j dj).r m l = ∑ m, s.r m i * s.r m l +
        (eliminate s j dj).r j i * (eliminate s j dj).r j l := by
      rw [← Finset.sum_erase_add _ _ (Finset.mem_univ j)]
      congr 1
      rw [← Finset.sum_erase (a := j) (f := fun m => s.r m i * s.r m l) Finset.univ (by rw [h.zero j i (Or.inl le_rfl), zero_mul])]
      refine Finset.sum_congr rfl fun m hm => ?_
      have : m ≠ j := Finset.ne_of_mem_erase hm
      simp [eliminate, this]
    have hr := h.recon i l
    rw [hsum]
    have hz : ∀ x : Fin n, s.r j x = 0 := fun x => h.zero j x (Or.inl le_rfl)
    have rdiag : (eliminate s j dj).r j j = Real.sqrt dj := by simp [eliminate]
    have rgt : ∀ x, j < x → (eliminate s j dj).r j x = s.a j x / Real.sqrt dj := by
      intro x hx
      simp [eliminate, hx.le, hx.ne']
    have rlt : ∀ x, x < j → (eliminate s j dj).r j x = 0 := by
      intro x hx
      simp [eliminate, not_le.mpr hx, hz]
    rcases lt_trichotomy i j with hi | rfl | hi
    · have hi' : i.val < j.val := hi
      rw [rlt i hi, zero_mul, add_zero, if_neg (by omega : ¬ (j.val + 1 ≤ i.val ∧ j.val + 1 ≤ l.val)), add_zero]
      rw [if_neg (by omega : ¬ (j.val ≤ i.val ∧ j.val ≤ l.val)), add_zero] at hr
      rw [← hr]
      congr 1
      by_cases hil : i = l
      · rw [if_pos ⟨hil, by omega⟩, if_pos ⟨hil, hi'⟩]
        simp [eliminate, hi.ne]
      · rw [if_neg (fun hh => hil hh.1), if_neg (fun hh => hil hh.1)]
    · rw [if_neg (by omega : ¬ (i.val + 1 ≤ i.val ∧ i.val + 1 ≤ l.val)), add_zero]
      rw [if_neg (by omega : ¬ (i = l ∧ i.val < i.val)), add_zero] at hr
      rcases lt_trichotomy l i with hl | rfl | hl
      · have hl' : l.val < i.val := hl
        rw [rlt l hl, mul_zero, add_zero, if_neg (fun hh => hl.ne' hh.1), add_zero]
        rw [if_neg (by omega), add_zero] at hr
        exact hr
      · rw [rdiag, hss, if_pos ⟨rfl, by omega⟩]
        rw [if_pos ⟨le_rfl, le_rfl⟩] at hr
        rw [hr]
        simp [eliminate]
      · have hl' : i.val < l.val := hl
        rw [rdiag, rgt l hl, if_neg (fun hh => hl.ne hh.1), add_zero, mul_div_cancel₀ _ hsq]
        rw [if_pos ⟨le_rfl, hl'.le⟩] at hr
        exact hr
    · have hi' : j.val < i.val := hi
      rw [if_neg (by omega : ¬ (i = l ∧ i.val < j.val + 1)), add_zero]
      rw [if_neg (by omega : ¬ (i = l ∧ i.val < j.val)), add_zero] at hr
      rcases lt_trichotomy l j with hl | rfl | hl
      · have hl' : l.val < j.val := hl
        rw [rlt l hl, mul_zero, add_zero, if_neg (by omega), add_zero]
        rw [if_neg (by omega), add_zero] at hr
        exact hr
      · rw [rdiag, rgt i hi, div_mul_cancel₀ _ hsq, if_neg (by omega), add_zero]
        rw [if_pos ⟨hi'.le, le_rfl⟩, h.symm i l hi'.le le_rfl] at hr
        exact hr
      · have hl' : j.val < l.val := hl
        rw [rgt i hi, rgt l hl, if_pos ⟨by omega, by omega⟩]
        rw [if_pos ⟨hi'.le, hl'.le⟩] at hr
        have : (eliminate s j dj).a i l = s.a i l - s.a j i / Real.sqrt dj * (s.a j l / Real.sqrt dj) := by
          simp [eliminate, hi, hl, hi.ne', hl.ne', hmin i l hi'.le hl'.le]
        rw [this, hr]
        ring
  · intro i l hi hl
    have hji : j < i := hi
    have hjl : j < l := hl
    simp only [eliminate, hji, hjl, and_self, if_true, min_comm i l, max_comm i l]
    ring
  · intro m i hmi
    simp only [eliminate]
    by_cases hmj : m = j
    · subst hmj
      rcases hmi with hm | hm
      · omega
      · rw [if_neg (by rintro ⟨_, h⟩; exact absurd hm (not_lt.mpr h))]
        exact h.zero m i (Or.inr hm)
    · rw [if_neg (by rintro ⟨h, _⟩; exact hmj h)]
      apply h.zero
      rcases hmi with hm | hm
      · left; omega
      · right; exact hm
  · intro m hm
    simp only [eliminate]
    by_cases hmj : m = j
    · subst hmj
      simp [Real.sqrt_pos.mpr hd]
    · simp only [hmj, false_and, if_false]
      apply h.pos
      have : m.val ≠ j.val := fun hh => hmj (Fin.ext hh)
      omega
  · intro m hm
    simp only [eliminate]
    by_cases hmj : m = j
    · subst hmj
      simp [hle]
    · simp only [hmj, if_false]
      apply h.e_nonneg
      have : m.val ≠ j.val := fun hh => hmj (Fin.ext hh)
      omega

theorem inv_step {s : State n} {σ : Equiv.Perm (Fin n)} {j : Fin n} (h : Inv A j.val s σ) :
    ∃ σ', Inv A (j.val + 1) (step A s j) σ' := by
  unfold step
  by_cases hq : pivot s.a j ≠ j
  · simp only [hq, ne_eq, not_false_eq_true, if_true]
    exact ⟨_, inv_eliminate (inv_exchange (le_pivot s.a j) h) (pivotValue_pos _ _ _) (le_pivotValue _ _ _)⟩
  · simp only [hq, if_false]
    exact ⟨_, inv_eliminate h (pivotValue_pos _ _ _) (le_pivotValue _ _ _)⟩

theorem inv_rounds (hA : A.IsSymm) : ∀ k, k ≤ n → ∃ σ, Inv A k (rounds A k) σ
  | 0, _ => ⟨_, inv_init hA⟩
  | k + 1, hk => by
    obtain ⟨σ, h⟩ := inv_rounds hA k (by omega)
    unfold rounds
    rw [dif_pos (show k < n by omega)]
    exact inv_step (j := ⟨k, by omega⟩) h

/-- **C40.** For every dimension and symmetric matrix `A`: `P` is a permutation matrix, `L` is lower triangular with a
positive diagonal, `e ≥ 0`, and `(P L)(P L)ᵀ = A + diag(P e)`. -/
theorem C40_reconstruction (hA : A.IsSymm) : let g := gmw A
    (∃ σ : Equiv.Perm (Fin n), ∀ i l, g.P i l = if i = σ l then 1 else 0) ∧
    (∀ i l, i < l → g.L i l = 0) ∧ (∀ i, 0 < g.L i i) ∧ (∀ i, 0 ≤ g.e i) ∧
    (g.P * g.L) * (g.P * g.L)ᵀ = A + diagonal (g.P *ᵥ g.e) := by
  obtain ⟨σ, h⟩ := inv_rounds hA n le_rfl
  intro g
  have hP : ∀ i l, g.P i l = if i = σ l then 1 else 0 := h.perm
  refine ⟨⟨σ, hP⟩, fun i l hil => h.zero l i (Or.inr hil), fun i => h.pos i i.2, fun i => h.e_nonneg i i.2, ?_⟩
  have hPL : ∀ (M : Matrix (Fin n) (Fin n) ℝ) i l, (g.P * M) i l = M (σ.symm i) l := by
    intro M i l
    rw [Matrix.mul_apply, Finset.sum_eq_single (σ.symm i)]
    · simp [hP]
    · intro b _ hb
      have : i ≠ σ b := by rintro rfl; simp at hb
      simp [hP, this]
    · simp
  have hPe : ∀ i, (g.P *ᵥ g.e) i = g.e (σ.symm i) := by
    intro i
    rw [Matrix.mulVec, dotProduct, Finset.sum_eq_single (σ.symm i)]
    · simp [hP]
    · intro b _ hb
      have : i ≠ σ b := by rintro rfl; simp at hb
      simp [hP, this]
    · simp
  ext i l
  have hr := h.recon (σ.symm i) (σ.symm l)
  rw [if_neg (fun hh : n ≤ (σ.symm i).val ∧ n ≤ (σ.symm l).val => absurd (σ.symm i).2 (not_lt.mpr hh.1)), add_zero] at hr
  simp only [Equiv.apply_symm_apply, Fin.is_lt, and_true] at hr
  rw [Matrix.mul_apply]
  simp only [Matrix.transpose_apply, hPL, Matrix.add_apply]
  have : ∑ x, g.L (σ.symm i) x * g.L (σ.symm l) x = ∑ m, (rounds A n).r m (σ.symm i) * (rounds A n).r m (σ.symm l) := rfl
  refine this.trans (hr.symm.trans ?_)
  congr 1
  by_cases hil : i = l
  · subst hil
    simp only [if_true, diagonal_apply_eq, hPe]
    rfl
  · have : σ.symm i ≠ σ.symm l := fun hh => hil (σ.symm.injective hh)
    rw [if_neg this, diagonal_apply_ne _ hil]

/-! ### No shift for matrices that are positive definite enough -/

/-- The quadratic form. -/
def quad (a : Matrix (Fin n) (Fin n) ℝ) (x : Fin n → ℝ) : ℝ := ∑ i, ∑ l, x i * a i l * x l

/-- The additional invariant: the remaining block is above `d`, its diagonal below that of `A`, and there was no shift. -/
structure Above (A : Matrix (Fin n) (Fin n) ℝ) (k : Nat) (s : State n) : Prop where
  quad : ∀ x : Fin n → ℝ, (∀ i, i.val < k → x i = 0) → delta A * ∑ i, x i ^ 2 ≤ quad s.a x
  le_gamma : ∀ i, k ≤ i.val → s.a i i ≤ gamma A
  no_shift : ∀ i, i.val < k → s.e i = 0

theorem quad_single (a : Matrix (Fin n) (Fin n) ℝ) (j : Fin n) (c : ℝ) : quad a (Pi.single j c) = c * a j j * c := by
  unfold quad
  rw [Finset.sum_eq_single j, Finset.sum_eq_single j]
  · simp
  · intro b _ hb; simp [hb]
  · simp
  · intro b _ hb; simp [hb]
  · simp

theorem quad_add_single {a : Matrix (Fin n) (Fin n) ℝ} {j : Fin n} {y : Fin n → ℝ} (hs : ∀ i, y i ≠ 0 → a i j = a j i) (c : ℝ) :
    quad a (y + Pi.single j c) = quad a y + 2 * c * ∑ i, a j i * y i + c * a j j * c := by
  have hy : ∀ i, y i * a i j = a j i * y i := by
    intro i
    by_cases h : y i = 0
    · simp [h]
    · rw [hs i h]; ring
  rw [← quad_single a j c]
  unfold quad
  have e1 : ∀ i l, (y + Pi.single j c : Fin n → ℝ) i * a i l * (y + Pi.single j c : Fin n → ℝ) l =
      y i * a i l * y l + (y i * a i l * (Pi.single j c : Fin n → ℝ) l + (Pi.single j c : Fin n → ℝ) i * a i l * y l) +
      (Pi.single j c : Fin n → ℝ) i * a i l * (Pi.single j c : Fin n → ℝ) l := by
    intro i l
    simp only [Pi.add_apply]
    ring
  simp only [e1, Finset.sum_add_distrib]
  congr 2
  have e2 : ∑ i, ∑ l, y i * a i l * (Pi.single j c : Fin n → ℝ) l = c * ∑ i, a j i * y i := by
    rw [Finset.mul_sum]
    refine Finset.sum_congr rfl fun i _ => ?_
    rw [Finset.sum_eq_single j]
    · rw [Pi.single_eq_same, hy]; ring
    · intro b _ hb; simp [hb]
    · simp
  have e3 : ∑ i, ∑ l, (Pi.single j c : Fin n → ℝ) i * a i l * y l = c * ∑ i, a j i * y i := by
    rw [Finset.sum_eq_single j, Finset.mul_sum]
    · refine Finset.sum_congr rfl fun l _ => ?_
      rw [Pi.single_eq_same]; ring
    · intro b _ hb; simp [hb]
    · simp
  rw [e2, e3]
  ring

theorem sum_single_sq (j : Fin n) (c : ℝ) : ∑ i, (Pi.single j c : Fin n → ℝ) i ^ 2 = c ^ 2 := by
  rw [Finset.sum_eq_single j]
  · simp
  · intro b _ hb; simp [hb]
  · simp

theorem above_exchange {s : State n} {j q : Fin n} (hq : j ≤ q) (h : Above A j.val s) : Above A j.val (exchange s j q) where
  quad := by
    intro x hx
    have := h.quad (fun i => x (Equiv.swap j q i)) (by
      intro i hi
      rw [swap_lt hq hi]
      exact hx i hi)
    have e1 : ∑ i, x (Equiv.swap j q i) ^ 2 = ∑ i, x i ^ 2 := Equiv.sum_comp (Equiv.swap j q) (fun i => x i ^ 2)
    rw [e1] at this
    refine this.trans (le_of_eq ?_)
    unfold ASAPy.Gmw.quad exchange
    simp only [submatrix_apply]
    rw [← Equiv.sum_comp (Equiv.swap j q)]
    refine Finset.sum_congr rfl fun i _ => ?_
    rw [← Equiv.sum_comp (Equiv.swap j q)]
    refine Finset.sum_congr rfl fun l _ => ?_
    simp
  le_gamma := by
    intro i hi
    exact h.le_gamma _ (swap_ge hq hi)
  no_shift := by intro i hi; exact h.no_shift i hi

theorem gamma_le_beta_sq (A : Matrix (Fin n) (Fin n) ℝ) : gamma A ≤ beta A ^ 2 := by
  unfold beta
  split_ifs
  · rw [Real.sq_sqrt (eps_pos.le.trans (le_max_right _ _))]
    exact le_max_left _ _
  · rw [Real.sq_sqrt (eps_pos.le.trans (le_max_right _ _))]
    exact (le_max_left _ _).trans (le_max_left _ _)

theorem foldl_max' {α : Type*} (f : α → ℝ) (l : List α) (c : ℝ) : ∀ t : ℝ, 0 ≤ t → t ≤ c → (∀ i ∈ l, f i ≤ c) →
    0 ≤ l.foldl (fun t i => max t (f i)) t ∧ l.foldl (fun t i => max t (f i)) t ≤ c := by
  induction l with
  | nil => intro t h0 h1 _; exact ⟨h0, h1⟩
  | cons a l ih =>
    intro t h0 h1 h
    exact ih _ (h0.trans (le_max_left _ _)) (max_le h1 (h a (List.mem_cons_self ..)))
      (fun i hi => h i (List.mem_cons_of_mem _ hi))

/-- The pivot value is the diagonal entry itself. -/
theorem pivotValue_eq {s : State n} {σ : Equiv.Perm (Fin n)} {j : Fin n} (hi : Inv A j.val s σ) (h : Above A j.val s) :
    pivotValue A s.a j = s.a j j ∧ delta A ≤ s.a j j := by
  have hd : delta A ≤ s.a j j := by
    have := h.quad (Pi.single j 1) (by
      intro i hi
      have : i ≠ j := by rintro rfl; omega
      simp [this])
    rw [quad_single, sum_single_sq] at this
    linarith
  have hpos : 0 < s.a j j := (delta_pos A).trans_le hd
  refine ⟨?_, hd⟩
  unfold pivotValue
  have hsq : ∀ i, j < i → |s.a j i| ≤ Real.sqrt (s.a j j) * beta A := by
    intro i hji
    have hji' : j.val < i.val := hji
    have hg : s.a i i ≤ beta A ^ 2 := (h.le_gamma i hji'.le).trans (gamma_le_beta_sq A)
    have hc : s.a j i ^ 2 ≤ s.a j j * s.a i i := by
      have := h.quad (Pi.single i 1 + Pi.single j (-(s.a j i) / s.a j j)) (by
        intro l hl
        have h1 : l ≠ i := by rintro rfl; omega
        have h2 : l ≠ j := by rintro rfl; omega
        simp [h1, h2])
      have h0 : 0 ≤ delta A * ∑ l, (Pi.single i 1 + Pi.single j (-(s.a j i) / s.a j j) : Fin n → ℝ) l ^ 2 :=
        mul_nonneg (delta_pos A).le (Finset.sum_nonneg fun _ _ => sq_nonneg _)
      rw [quad_add_single, quad_single] at this
      · have e : ∑ l, s.a j l * (Pi.single i 1 : Fin n → ℝ) l = s.a j i := by
          rw [Finset.sum_eq_single i]
          · simp
          · intro b _ hb; simp [hb]
          · simp
        rw [e] at this
        have h1 := h0.trans this
        field_simp at h1
        nlinarith
      · intro l hl
        have : l = i := by
          by_contra hne
          simp [hne] at hl
        subst this
        exact hi.symm _ _ hji'.le le_rfl
    have hc' : s.a j i ^ 2 ≤ (Real.sqrt (s.a j j) * beta A) ^ 2 := by
      rw [mul_pow, Real.sq_sqrt hpos.le]
      exact hc.trans (mul_le_mul_of_nonneg_left hg hpos.le)
    exact abs_le_of_sq_le_sq hc' (mul_nonneg (Real.sqrt_nonneg _) (beta_pos A).le)
  obtain ⟨ht0, ht⟩ := foldl_max' (fun i => |s.a j i|) ((List.finRange n).filter fun i => decide (j < i))
    (Real.sqrt (s.a j j) * beta A) 0 le_rfl (mul_nonneg (Real.sqrt_nonneg _) (beta_pos A).le) (by
      intro i hi
      simp only [List.mem_filter, decide_eq_true_eq] at hi
      exact hsq i hi.2)
  have hth : (((List.finRange n).filter fun i => decide (j < i)).foldl (fun t i => max t |s.a j i|) 0 / beta A) ^ 2 ≤ s.a j j := by
    have := (div_le_iff₀ (beta_pos A)).mpr ht
    calc _ ≤ (Real.sqrt (s.a j j)) ^ 2 := pow_le_pow_left₀ (div_nonneg ht0 (beta_pos A).le) this 2
      _ = s.a j j := Real.sq_sqrt hpos.le
  refine le_antisymm (max_le (max_le (abs_of_pos hpos).le hth) hd) ?_
  exact (le_abs_self _).trans ((le_max_left _ _).trans (le_max_left _ _))

theorem above_eliminate {s : State n} {σ : Equiv.Perm (Fin n)} {j : Fin n} (hi : Inv A j.val s σ) (h : Above A j.val s) :
    Above A (j.val + 1) (eliminate s j (pivotValue A s.a j)) := by
  obtain ⟨hpv, hd⟩ := pivotValue_eq hi h
  have hpos : 0 < s.a j j := (delta_pos A).trans_le hd
  have hsq : Real.sqrt (s.a j j) ≠ 0 := (Real.sqrt_pos.mpr hpos).ne'
  have hss : Real.sqrt (s.a j j) * Real.sqrt (s.a j j) = s.a j j := Real.mul_self_sqrt hpos.le
  rw [hpv]
  have ha : ∀ i l : Fin n, j < i → j < l → (eliminate s j (s.a j j)).a i l = s.a i l - s.a j i * s.a j l / s.a j j := by
    intro i l hji hjl
    have hji' : j.val < i.val := hji
    have hjl' : j.val < l.val := hjl
    have hmin : s.a (min i l) (max i l) = s.a i l := by
      rcases le_total i l with hl | hl
      · rw [min_eq_left hl, max_eq_right hl]
      · rw [min_eq_right hl, max_eq_left hl, hi.symm _ _ hjl'.le hji'.le]
    simp only [eliminate, hji, hjl, and_self, if_true, hji.ne', hjl.ne', if_false, hmin]
    rw [div_mul_div_comm, hss]
  refine ⟨?_, ?_, ?_⟩
  · intro y hy
    have hy' : ∀ i, ¬ j < i → y i = 0 := by
      intro i hji
      apply hy
      have : ¬ j.val < i.val := hji
      omega
    set b := ∑ i, s.a j i * y i with hb
    have hq := h.quad (y + Pi.single j (-b / s.a j j)) (by
      intro i hij
      have h1 : ¬ j < i := by
        have : i.val < j.val := hij
        exact not_lt.mpr (le_of_lt this)
      have h2 : i ≠ j := by rintro rfl; omega
      simp [hy' i h1, h2])
    rw [quad_add_single (by
      intro i hne
      have : j < i := by by_contra hc; exact hne (hy' i hc)
      exact hi.symm _ _ (le_of_lt this) le_rfl)] at hq
    have hn : ∑ i, y i ^ 2 ≤ ∑ i, (y + Pi.single j (-b / s.a j j) : Fin n → ℝ) i ^ 2 := by
      apply Finset.sum_le_sum
      intro i _
      by_cases hij : i = j
      · subst hij
        rw [hy' i (lt_irrefl i)]
        simp only [ne_eq, OfNat.ofNat_ne_zero, not_false_eq_true, zero_pow]
        exact sq_nonneg _
      · simp [hij]
    have hnew : quad (eliminate s j (s.a j j)).a y = quad s.a y - b * b / s.a j j := by
      unfold quad
      have : ∀ i l, y i * (eliminate s j (s.a j j)).a i l * y l =
          y i * s.a i l * y l - (s.a j i * y i) * (s.a j l * y l) / s.a j j := by
        intro i l
        by_cases hji : j < i
        · by_cases hjl : j < l
          · rw [ha i l hji hjl]; ring
          · rw [hy' l hjl]; ring
        · rw [hy' i hji]; ring
      simp only [this, Finset.sum_sub_distrib]
      congr 1
      simp only [← Finset.sum_div, ← Finset.mul_sum, ← Finset.sum_mul]
      rw [← hb]
    rw [hnew]
    have := (mul_le_mul_of_nonneg_left hn (delta_pos A).le).trans hq
    refine this.trans (le_of_eq ?_)
    rw [← hb]
    field_simp
    ring
  · intro i hi'
    have hji : j < i := hi'
    rw [ha i i hji hji]
    have h1 := h.le_gamma i (le_of_lt hji)
    have h2 : 0 ≤ s.a j i * s.a j i / s.a j j := div_nonneg (mul_self_nonneg _) hpos.le
    linarith
  · intro i hij
    by_cases hie : i = j
    · subst hie; simp [eliminate]
    · have : i.val ≠ j.val := fun hh => hie (Fin.ext hh)
      simp only [eliminate, hie, if_false]
      exact h.no_shift i (by omega)

theorem above_rounds (hA : A.IsSymm) (hpd : ∀ x : Fin n → ℝ, delta A * ∑ i, x i ^ 2 ≤ quad A x) :
    ∀ k, k ≤ n → ∃ σ, Inv A k (rounds A k) σ ∧ Above A k (rounds A k)
  | 0, _ => ⟨_, inv_init hA, fun x _ => hpd x, fun i _ => (le_abs_self _).trans (abs_le_gamma A i), fun i hi => by omega⟩
  | k + 1, hk => by
    obtain ⟨σ, h, ha⟩ := above_rounds hA hpd k (by omega)
    unfold rounds
    rw [dif_pos (show k < n by omega)]
    have hkn : k < n := by omega
    let j : Fin n := ⟨k, hkn⟩
    have h' : Inv A j.val (rounds A k) σ := h
    have ha' : Above A j.val (rounds A k) := ha
    change ∃ σ, Inv A (j.val + 1) (step A (rounds A k) j) σ ∧ Above A (j.val + 1) (step A (rounds A k) j)
    unfold step
    by_cases hq : pivot (rounds A k).a j ≠ j
    · simp only [hq, ne_eq, not_false_eq_true, if_true]
      have hx := inv_exchange (le_pivot (rounds A k).a j) h'
      exact ⟨_, inv_eliminate hx (pivotValue_pos _ _ _) (le_pivotValue _ _ _),
        above_eliminate hx (above_exchange (le_pivot (rounds A k).a j) ha')⟩
    · simp only [hq, if_false]
      exact ⟨_, inv_eliminate h' (pivotValue_pos _ _ _) (le_pivotValue _ _ _), above_eliminate h' ha'⟩

/-- **C40.** A symmetric matrix whose eigenvalues are at least `delta` (machine epsilon times the size of its entries) is
factorised without any shift: `e = 0` and `(P L)(P L)ᵀ = A`. -/
theorem C40_no_shift (hA : A.IsSymm) (hpd : ∀ x : Fin n → ℝ, delta A * ∑ i, x i ^ 2 ≤ ∑ i, ∑ l, x i * A i l * x l) :
    (∀ i, (gmw A).e i = 0) ∧ ((gmw A).P * (gmw A).L) * ((gmw A).P * (gmw A).L)ᵀ = A := by
  obtain ⟨σ, _, ha⟩ := above_rounds hA hpd n le_rfl
  have he : ∀ i, (gmw A).e i = 0 := fun i => ha.no_shift i i.2
  refine ⟨he, ?_⟩
  have := (C40_reconstruction hA).2.2.2.2
  have h0 : (gmw A).e = 0 := funext he
  simp only [h0, mulVec_zero] at this
  rw [this]
  simp

/-! ### C41 -/

/-- The contract of `scipy.linalg.cholesky`: a returned upper triangular matrix is a factor. -/
def Contract (chol : Matrix (Fin n) (Fin n) ℝ → Option (Matrix (Fin n) (Fin n) ℝ)) : Prop :=
  ∀ A U, chol A = some U → Uᵀ * U = A

/-- **C41 (partial).** If the plain factorisation succeeds, `CᵀC = A`. Otherwise `CᵀC` is the matrix `A` with rows and
columns rearranged by a permutation `σ`, plus a non-negative diagonal; so `CᵀC = A` plus a non-negative diagonal if no pivoting
happened. Missing: with pivoting it is the correlation of other variables, see `C41_pivoting_refuted`. -/
theorem C41_factor_partial {chol : Matrix (Fin n) (Fin n) ℝ → Option (Matrix (Fin n) (Fin n) ℝ)} (hc : Contract chol)
    (hA : A.IsSymm) : let C := factor chol A
    (chol A ≠ none → Cᵀ * C = A) ∧
    (chol A = none → ∃ (σ : Equiv.Perm (Fin n)) (e : Fin n → ℝ), (∀ i, 0 ≤ e i) ∧ (∀ i l, (gmw A).P i l = if i = σ l then 1 else 0) ∧
      ∀ i l, (Cᵀ * C) i l = A (σ i) (σ l) + if i = l then e i else 0) := by
  intro C
  constructor
  · intro h
    obtain ⟨U, hU⟩ := Option.ne_none_iff_exists'.mp h
    have : C = U := by simp only [C, factor, hU]
    rw [this]
    exact hc A U hU
  · intro h
    obtain ⟨σ, hi⟩ := inv_rounds hA n le_rfl
    refine ⟨σ, (rounds A n).e, fun i => hi.e_nonneg i i.2, hi.perm, ?_⟩
    intro i l
    have hC : C = (rounds A n).r := by
      simp only [C, factor, h]
      exact Matrix.transpose_transpose _
    have := hi.recon i l
    rw [if_neg (by have := i.2; omega : ¬ (n ≤ i.val ∧ n ≤ l.val)), add_zero] at this
    rw [hC, Matrix.mul_apply]
    simp only [Matrix.transpose_apply]
    rw [← this]
    simp

/-- A correlation matrix that is not positive semidefinite. -/
noncomputable def bad : Matrix (Fin 3) (Fin 3) ℝ := !![1, 1, 0; 1, 1, 1/2; 0, 1/2, 1]

theorem bad_symm : bad.IsSymm := by
  ext i j
  fin_cases i <;> fin_cases j <;> simp [bad]

theorem eps_le : EPS ≤ 1/4 := by
  unfold EPS
  norm_num

theorem bad_gamma : gamma bad = 1 := by
  have : List.finRange 3 = [0, 1, 2] := by decide
  simp [gamma, this, bad]

theorem bad_xi : xi bad = 1 := by
  have h : List.finRange 3 = [0, 1, 2] := by decide
  have h0 : ([0, 1, 2] : List (Fin 3)).filter (fun j => decide (0 < j)) = [1, 2] := by decide
  have h1 : ([0, 1, 2] : List (Fin 3)).filter (fun j => decide (1 < j)) = [2] := by decide
  have h2 : ([0, 1, 2] : List (Fin 3)).filter (fun j => decide (2 < j)) = [] := by decide
  simp only [xi, h, List.foldl_cons, List.foldl_nil, h0, h1, h2]
  simp [bad]
  norm_num

theorem bad_beta : beta bad = 1 := by
  unfold beta
  rw [if_neg (by norm_num), bad_gamma, bad_xi]
  have h8 : (1 : ℝ) ≤ Real.sqrt (((3 : ℕ) : ℝ) ^ 2 - 1) := by
    rw [Real.one_le_sqrt]
    norm_num
  have h1 : (1 : ℝ) / Real.sqrt (((3 : ℕ) : ℝ) ^ 2 - 1) ≤ 1 := by
    rw [div_le_one (by linarith)]
    exact h8
  rw [max_eq_left h1, max_eq_left (eps_le.trans (by norm_num)), Real.sqrt_one]

theorem bad_delta : delta bad ≤ 1 := by
  unfold delta
  rw [bad_gamma, bad_xi]
  have := eps_le
  norm_num
  linarith

/-- The state after the first round. -/
theorem bad_round1 : (rounds bad 1).P = (1 : Matrix (Fin 3) (Fin 3) ℝ).submatrix id (Equiv.swap 0 2) ∧
    (rounds bad 1).a 1 1 = 3/4 ∧ (rounds bad 1).a 2 2 = 1 := by
  have hf : (List.finRange 3).filter (fun i : Fin 3 => decide (0 < i)) = [1, 2] := by decide
  have hp : pivot bad 0 = 2 := by
    unfold pivot
    rw [hf]
    simp [bad]
  have hr : rounds bad 1 = eliminate (exchange (init bad) 0 2) 0 (pivotValue bad (exchange (init bad) 0 2).a 0) := by
    show (if h : 0 < 3 then step bad (rounds bad 0) ⟨0, h⟩ else rounds bad 0) = _
    rw [dif_pos (by norm_num)]
    unfold step
    have : pivot (rounds bad 0).a ⟨0, by norm_num⟩ = 2 := hp
    rw [this]
    rfl
  have hs1 : (Equiv.swap (0 : Fin 3) 2) 1 = 1 := by decide
  have hpv : pivotValue bad (exchange (init bad) 0 2).a 0 = 1 := by
    unfold pivotValue
    rw [hf, bad_beta]
    simp only [List.foldl_cons, List.foldl_nil, exchange, init, submatrix_apply, Equiv.swap_apply_left, Equiv.swap_apply_right,
      hs1, show bad 2 2 = 1 by simp [bad], show bad 2 1 = 1/2 by simp [bad], show bad 2 0 = 0 by simp [bad]]
    have : max |(1 : ℝ)| ((max (max 0 |1/2|) |0| / 1) ^ 2) = 1 := by norm_num
    rw [this]
    exact max_eq_left bad_delta
  rw [hr, hpv]
  refine ⟨rfl, ?_, ?_⟩
  · simp [eliminate, exchange, init, hs1, bad]
    norm_num
  · simp [eliminate, exchange, init, hs1, bad]

theorem bad_P : (gmw bad).P = (1 : Matrix (Fin 3) (Fin 3) ℝ).submatrix id (fun l => Equiv.swap 0 2 (Equiv.swap 1 2 l)) := by
  have hf1 : (List.finRange 3).filter (fun i : Fin 3 => decide (1 < i)) = [2] := by decide
  have hf2 : (List.finRange 3).filter (fun i : Fin 3 => decide (2 < i)) = [] := by decide
  obtain ⟨h1, h2, h3⟩ := bad_round1
  have hp1 : pivot (rounds bad 1).a 1 = 2 := by
    unfold pivot
    rw [hf1]
    simp only [List.foldl_cons, List.foldl_nil, h2, h3]
    norm_num
  have hr2 : (rounds bad 2).P = (rounds bad 1).P.submatrix id (Equiv.swap 1 2) := by
    show (if h : 1 < 3 then step bad (rounds bad 1) ⟨1, h⟩ else rounds bad 1).P = _
    rw [dif_pos (by norm_num)]
    unfold step
    have : pivot (rounds bad 1).a ⟨1, by norm_num⟩ = 2 := hp1
    rw [this]
    rfl
  have hr3 : (rounds bad 3).P = (rounds bad 2).P := by
    show (if h : 2 < 3 then step bad (rounds bad 2) ⟨2, h⟩ else rounds bad 2).P = _
    rw [dif_pos (by norm_num)]
    unfold step
    have : pivot (rounds bad 2).a ⟨2, by norm_num⟩ = ⟨2, by norm_num⟩ := by
      unfold pivot
      have : (List.finRange 3).filter (fun i : Fin 3 => decide (⟨2, by norm_num⟩ < i)) = [] := hf2
      rw [this]
      rfl
    rw [this]
    rfl
  show (rounds bad 3).P = _
  rw [hr3, hr2, h1]
  rfl

/-- **C41 is false when the fallback pivots**: for every Cholesky routine that keeps its contract, there is a correlation
matrix (symmetric, unit diagonal, entries in [0, 1]) for which variables 0 and 1 shall have correlation 1 and the factor
used gives them correlation 0. -/
theorem C41_pivoting_refuted {chol : Matrix (Fin 3) (Fin 3) ℝ → Option (Matrix (Fin 3) (Fin 3) ℝ)} (hc : Contract chol) :
    ∃ A : Matrix (Fin 3) (Fin 3) ℝ, A.IsSymm ∧ (∀ i, A i i = 1) ∧ (∀ i j, 0 ≤ A i j ∧ A i j ≤ 1) ∧ A 0 1 = 1 ∧
      ((factor chol A)ᵀ * factor chol A) 0 1 = 0 := by
  have hnone : chol bad = none := by
    by_contra h
    obtain ⟨U, hU⟩ := Option.ne_none_iff_exists'.mp h
    have hf := hc bad U hU
    let x : Fin 3 → ℝ := ![1, -1, 1/2]
    have h1 : x ⬝ᵥ (bad *ᵥ x) = -1/4 := by
      simp [x, bad, Matrix.mulVec, dotProduct, Fin.sum_univ_three]
      norm_num
    have h2 : 0 ≤ x ⬝ᵥ (bad *ᵥ x) := by
      rw [← hf, ← Matrix.mulVec_mulVec, Matrix.dotProduct_mulVec, Matrix.vecMul_transpose]
      exact Finset.sum_nonneg fun i _ => mul_self_nonneg _
    rw [h1] at h2
    norm_num at h2
  obtain ⟨σ, e, _, hP, hr⟩ := (C41_factor_partial hc bad_symm).2 hnone
  have h20 : Equiv.swap (0 : Fin 3) 2 (Equiv.swap 1 2 0) = 2 := by decide
  have h01 : Equiv.swap (0 : Fin 3) 2 (Equiv.swap 1 2 1) = 0 := by decide
  have hσ0 : σ 0 = 2 := by
    have := hP 2 0
    rw [bad_P, submatrix_apply, h20, id, one_apply_eq] at this
    by_contra hne
    simp [Ne.symm hne] at this
  have hσ1 : σ 1 = 0 := by
    have := hP 0 1
    rw [bad_P, submatrix_apply, h01, id, one_apply_eq] at this
    by_contra hne
    simp [Ne.symm hne] at this
  refine ⟨bad, bad_symm, ?_, ?_, by simp [bad], ?_⟩
  · intro i; fin_cases i <;> simp [bad]
  · intro i j
    fin_cases i <;> fin_cases j <;> simp [bad] <;> norm_num
  · rw [hr 0 1, hσ0, hσ1]
    simp [bad]

/-- There is a Cholesky routine that keeps its contract and succeeds where a factor exists. -/
example : ∃ chol : Matrix (Fin 3) (Fin 3) ℝ → Option (Matrix (Fin 3) (Fin 3) ℝ), Contract chol ∧ chol 1 ≠ none := by
  classical
  refine ⟨fun A => if h : ∃ U : Matrix (Fin 3) (Fin 3) ℝ, Uᵀ * U = A then some h.choose else none, ?_, ?_⟩
  · intro A U h
    by_cases hU : ∃ U : Matrix (Fin 3) (Fin 3) ℝ, Uᵀ * U = A
    · simp only [hU, dif_pos, Option.some.injEq] at h
      rw [← h]
      exact hU.choose_spec
    · simp [hU] at h
  · have : ∃ U : Matrix (Fin 3) (Fin 3) ℝ, Uᵀ * U = 1 := ⟨1, by simp⟩
    simp [this]

/-- A matrix that meets the hypothesis of `C40_no_shift`. -/
example : ∀ x : Fin 2 → ℝ, delta (1 : Matrix (Fin 2) (Fin 2) ℝ) * ∑ i, x i ^ 2 ≤
    ∑ i, ∑ l, x i * (1 : Matrix (Fin 2) (Fin 2) ℝ) i l * x l := by
  intro x
  have hf : List.finRange 2 = [0, 1] := by decide
  have h0 : ([0, 1] : List (Fin 2)).filter (fun j => decide (0 < j)) = [1] := by decide
  have h1 : ([0, 1] : List (Fin 2)).filter (fun j => decide (1 < j)) = [] := by decide
  have hd : delta (1 : Matrix (Fin 2) (Fin 2) ℝ) ≤ 1 := by
    have := eps_le
    simp only [delta, gamma, xi, hf, List.foldl_cons, List.foldl_nil, h0, h1]
    norm_num
    linarith
  simp [Fin.sum_univ_two]
  nlinarith [sq_nonneg (x 0), sq_nonneg (x 1)]

end ASAPy.Gmw
