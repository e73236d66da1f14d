import Verif.Gmw.Props

/-! # C40: the size of the factor and of the shift -/

namespace ASAPy.Gmw
open Matrix
variable {n : Nat} {A : Matrix (Fin n) (Fin n) ℝ}

/-- `g` is the largest absolute value on the diagonal and `x` the largest one off it (0 if there is none). -/
structure Largest (A : Matrix (Fin n) (Fin n) ℝ) (g x : ℝ) : Prop where
  diag : ∀ i, |A i i| ≤ g
  diag_mem : (∃ i, |A i i| = g) ∨ (n = 0 ∧ g = 0)
  off : ∀ i l, i ≠ l → |A i l| ≤ x
  off_mem : (∃ i l, i ≠ l ∧ |A i l| = x) ∨ (n ≤ 1 ∧ x = 0)

/-- The bound of Gill, Murray and Wright for the elements of the factor off the diagonal, squared. -/
noncomputable def bound2 (n : Nat) (g x : ℝ) : ℝ := if n = 1 then max g (1 / 2 ^ 52) else max (max g (x / Real.sqrt ((n : ℝ) ^ 2 - 1))) (1 / 2 ^ 52)

/-- The smallest pivot: machine epsilon times the size of the matrix. -/
noncomputable def smallest (g x : ℝ) : ℝ := 1 / 2 ^ 52 * max (g + x) 1

theorem gamma_eq {g x : ℝ} (h : Largest A g x) : gamma A = g := by
  have h0 : 0 ≤ g := by
    rcases h.diag_mem with ⟨i, hi⟩ | ⟨_, rfl⟩
    · rw [← hi]; exact abs_nonneg _
    · exact le_rfl
  refine le_antisymm (foldl_max_le (fun i => |A i i|) _ g 0 h0 fun i _ => h.diag i) ?_
  rcases h.diag_mem with ⟨i, hi⟩ | ⟨_, rfl⟩
  · rw [← hi]; exact abs_le_gamma A i
  · exact gamma_nonneg A

theorem foldl_mono {α : Type*} (f : ℝ → α → ℝ) (hf : ∀ x i, x ≤ f x i) (l : List α) : ∀ x, x ≤ l.foldl f x := by
  induction l with
  | nil => exact fun x => le_rfl
  | cons a l ih => exact fun x => (hf x a).trans (ih _)

theorem foldl_ge_of_mem {α : Type*} (f : ℝ → α → ℝ) (hf : ∀ x i, x ≤ f x i) (l : List α) {i : α} (hi : i ∈ l) (c : ℝ) (hc : ∀ x, c ≤ f x i) : ∀ x, c ≤ l.foldl f x := by
  induction l with
  | nil => simp at hi
  | cons a l ih =>
    intro x
    rcases List.mem_cons.1 hi with rfl | hi
    · exact (hc x).trans (foldl_mono f hf l _)
    · exact ih hi _

theorem foldl_le_of {α : Type*} (f : ℝ → α → ℝ) (c : ℝ) (hf : ∀ x i, x ≤ c → f x i ≤ c) (l : List α) : ∀ x, x ≤ c → l.foldl f x ≤ c := by
  induction l with
  | nil => exact fun x h => h
  | cons a l ih => exact fun x h => ih _ (hf x a h)

theorem le_xi {i l : Fin n} (hil : i < l) : |A i l| ≤ xi A := by
  unfold xi
  refine foldl_ge_of_mem _ (fun x i => (foldl_max_ge (fun j => |A i j|) _ x).1) _ (List.mem_finRange i) _ (fun x => ?_) 0
  exact (foldl_max_ge (fun j => |A i j|) _ x).2 l (List.mem_filter.2 ⟨List.mem_finRange l, by simpa using hil⟩)

theorem xi_nonneg : 0 ≤ xi A := foldl_mono _ (fun x i => (foldl_max_ge (fun j => |A i j|) _ x).1) _ 0

theorem le_xi' (hA : A.IsSymm) {i l : Fin n} (hil : i ≠ l) : |A i l| ≤ xi A := by
  rcases lt_or_gt_of_ne hil with h | h
  · exact le_xi h
  · have : A i l = A l i := congrFun (congrFun hA l) i
    rw [this]; exact le_xi h

theorem xi_eq (hA : A.IsSymm) {g x : ℝ} (h : Largest A g x) : xi A = x := by
  have h0 : 0 ≤ x := by
    rcases h.off_mem with ⟨i, l, _, hi⟩ | ⟨_, rfl⟩
    · rw [← hi]; exact abs_nonneg _
    · exact le_rfl
  refine le_antisymm (foldl_le_of _ x (fun y i hy => foldl_max_le (fun j => |A i j|) _ x y hy fun l hl => ?_) _ 0 h0) ?_
  · have : i < l := by simpa using (List.mem_filter.1 hl).2
    exact h.off i l this.ne
  · rcases h.off_mem with ⟨i, l, hil, hi⟩ | ⟨_, rfl⟩
    · rw [← hi]; exact le_xi' hA hil
    · exact xi_nonneg

theorem eps_eq : EPS = 1 / 2 ^ 52 := by unfold EPS; norm_num

theorem delta_eq (hA : A.IsSymm) {g x : ℝ} (h : Largest A g x) : delta A = smallest g x := by
  rw [delta, smallest, gamma_eq h, xi_eq hA h, eps_eq]

theorem beta_eq (hA : A.IsSymm) {g x : ℝ} (h : Largest A g x) : beta A = Real.sqrt (bound2 n g x) := by
  rw [beta, bound2, gamma_eq h, xi_eq hA h, eps_eq]
  split_ifs <;> rfl

/-- The additional invariant. -/
structure Bounded (A : Matrix (Fin n) (Fin n) ℝ) (k : Nat) (s : State n) : Prop where
  r : ∀ m i, m.val < k → m < i → |s.r m i| ≤ beta A
  e : ∀ m, m.val < k → s.e m ≤ max (max (gamma A + m.val * beta A ^ 2) ((xi A / beta A + m.val * beta A) ^ 2)) (delta A) + (gamma A + m.val * beta A ^ 2)

theorem bounded_exchange {s : State n} {j q : Fin n} (hq : j ≤ q) (h : Bounded A j.val s) : Bounded A j.val (exchange s j q) where
  r := by
    intro m i hm hi
    simp only [exchange, submatrix_apply, id]
    refine h.r m _ hm ?_
    by_cases hij : i.val < j.val
    · rw [swap_lt hq hij]; exact hi
    · exact lt_of_lt_of_le (show m.val < j.val from hm) (swap_ge hq (by omega))
  e := h.e

/-- Elements of the remaining block. -/
theorem abs_a_le {s : State n} {σ : Equiv.Perm (Fin n)} {j : Fin n} (hi : Inv A j.val s σ) (h : Bounded A j.val s) {i l : Fin n} (h1 : j ≤ i) (h2 : j ≤ l) :
    |s.a i l| ≤ |A (σ i) (σ l)| + j.val * beta A ^ 2 := by
  have h1' : j.val ≤ i.val := h1
  have h2' : j.val ≤ l.val := h2
  have hr := hi.recon i l
  rw [if_neg (by omega), if_pos ⟨h1', h2'⟩, add_zero] at hr
  have e : s.a i l = A (σ i) (σ l) - ∑ m, s.r m i * s.r m l := by rw [hr]; ring
  have hs : |∑ m, s.r m i * s.r m l| ≤ j.val * beta A ^ 2 := by
    have h3 : ∀ m : Fin n, |s.r m i * s.r m l| ≤ if m < j then beta A ^ 2 else 0 := by
      intro m
      split_ifs with hm
      · rw [abs_mul, sq]
        exact mul_le_mul (h.r m i hm (lt_of_lt_of_le hm h1)) (h.r m l hm (lt_of_lt_of_le hm h2)) (abs_nonneg _) (beta_pos A).le
      · rw [hi.zero m i (Or.inl (not_lt.1 hm))]; simp
    refine (Finset.abs_sum_le_sum_abs _ _).trans ((Finset.sum_le_sum fun m _ => h3 m).trans (le_of_eq ?_))
    rw [← Finset.sum_filter, Finset.sum_const, nsmul_eq_mul]
    congr 2
    rw [show (Finset.univ.filter fun m : Fin n => m < j) = Finset.Iio j from by ext; simp, Fin.card_Iio]
  rw [e]
  exact (abs_sub _ _).trans (add_le_add le_rfl hs)

theorem foldl_max_right {α : Type*} (f : α → ℝ) (l : List α) : ∀ x : ℝ, x ≤ l.foldl (fun x i => max x (f i)) x ∧ ∀ i ∈ l, f i ≤ l.foldl (fun x i => max x (f i)) x := by
  intro x
  have : (fun (x : ℝ) i => max x (f i)) = fun x i => max (f i) x := by funext x i; exact max_comm _ _
  rw [this]
  exact foldl_max_ge f l x

theorem bounded_eliminate (hA : A.IsSymm) {s : State n} {σ : Equiv.Perm (Fin n)} {j : Fin n} (hi : Inv A j.val s σ) (h : Bounded A j.val s) :
    Bounded A (j.val + 1) (eliminate s j (pivotValue A s.a j)) := by
  have hb := beta_pos A
  set θ := ((List.finRange n).filter fun i => decide (j < i)).foldl (fun t i => max t |s.a j i|) 0 with hθ
  have hpv : pivotValue A s.a j = max (max |s.a j j| ((θ / beta A) ^ 2)) (delta A) := rfl
  have hpos := pivotValue_pos A s.a j
  have hθ0 : 0 ≤ θ := (foldl_max_right (fun i => |s.a j i|) _ 0).1
  have hjj : |s.a j j| ≤ gamma A + j.val * beta A ^ 2 := (abs_a_le hi h le_rfl le_rfl).trans (add_le_add (abs_le_gamma A _) le_rfl)
  have hoff : ∀ i, j < i → |s.a j i| ≤ xi A + j.val * beta A ^ 2 := fun i hji =>
    (abs_a_le hi h le_rfl hji.le).trans (add_le_add (le_xi' hA fun e => hji.ne (σ.injective e)) le_rfl)
  constructor
  · intro m i hm hmi
    simp only [eliminate]
    by_cases hmj : m = j
    · subst hmj
      rw [if_pos ⟨rfl, hmi.le⟩, if_neg hmi.ne', abs_div, abs_of_nonneg (Real.sqrt_nonneg _), div_le_iff₀ (Real.sqrt_pos.2 hpos)]
      have h1 : |s.a m i| ≤ θ := (foldl_max_right (fun i => |s.a m i|) _ 0).2 i (List.mem_filter.2 ⟨List.mem_finRange i, by simpa using hmi⟩)
      have h2 : θ / beta A ≤ Real.sqrt (pivotValue A s.a m) := by
        apply Real.le_sqrt_of_sq_le
        rw [hpv]
        exact (le_max_right _ _).trans (le_max_left _ _)
      rw [div_le_iff₀ hb] at h2
      linarith
    · rw [if_neg (fun hh => hmj hh.1)]
      have : m.val ≠ j.val := fun hh => hmj (Fin.ext hh)
      exact h.r m i (by omega) hmi
  · intro m hm
    simp only [eliminate]
    by_cases hmj : m = j
    · subst hmj
      rw [if_pos rfl]
      have h1 : -s.a m m ≤ gamma A + m.val * beta A ^ 2 := (neg_le_abs _).trans hjj
      have h2 : (θ / beta A) ^ 2 ≤ (xi A / beta A + m.val * beta A) ^ 2 := by
        refine pow_le_pow_left₀ (div_nonneg hθ0 hb.le) ?_ 2
        have h3 : θ ≤ xi A + m.val * beta A ^ 2 := by
          refine (foldl_max' (fun i => |s.a m i|) _ _ 0 le_rfl (add_nonneg xi_nonneg (by positivity)) fun i hi => ?_).2
          exact hoff i (by simpa using (List.mem_filter.1 hi).2)
        rw [div_le_iff₀ hb, add_mul, div_mul_cancel₀ _ hb.ne']
        linarith [h3]
      have h3 : pivotValue A s.a m ≤ max (max (gamma A + m.val * beta A ^ 2) ((xi A / beta A + m.val * beta A) ^ 2)) (delta A) := by
        rw [hpv]
        exact max_le_max (max_le_max hjj h2) le_rfl
      linarith
    · rw [if_neg hmj]
      have : m.val ≠ j.val := fun hh => hmj (Fin.ext hh)
      exact h.e m (by omega)

theorem bounded_rounds (hA : A.IsSymm) : ∀ k, k ≤ n → ∃ σ, Inv A k (rounds A k) σ ∧ Bounded A k (rounds A k)
  | 0, _ => ⟨_, inv_init hA, fun m i hm => by omega, fun i hi => by omega⟩
  | k + 1, hk => by
    obtain ⟨σ, h, hb⟩ := bounded_rounds hA k (by omega)
    unfold rounds
    rw [dif_pos (show k < n by omega)]
    have hkn : k < n := by omega
    let j : Fin n := ⟨k, hkn⟩
    have h' : Inv A j.val (rounds A k) σ := h
    have hb' : Bounded A j.val (rounds A k) := hb
    change ∃ σ, Inv A (j.val + 1) (step A (rounds A k) j) σ ∧ Bounded A (j.val + 1) (step A (rounds A k) j)
    unfold step
    by_cases hq : pivot (rounds A k).a j ≠ j
    · simp only [hq, ne_eq, not_false_eq_true, if_true]
      have hx := inv_exchange (le_pivot (rounds A k).a j) h'
      exact ⟨_, inv_eliminate hx (pivotValue_pos _ _ _) (le_pivotValue _ _ _), bounded_eliminate hA hx (bounded_exchange (le_pivot (rounds A k).a j) hb')⟩
    · simp only [hq, if_false]
      exact ⟨_, inv_eliminate h' (pivotValue_pos _ _ _) (le_pivotValue _ _ _), bounded_eliminate hA h' hb'⟩

/-- **C40, size of the factor and of the shift.** With the largest elements `g` on and `x` off the diagonal, `b² = bound2 n g x`: no element of the factor off its diagonal is larger than `b`, and the shift of the
i-th pivot is at most `max(g + i b², (x / b + i b)², δ) + g + i b²`. -/
theorem C40_bounds (hA : A.IsSymm) {g x b : ℝ} (h : Largest A g x) (hb : 0 < b) (hb2 : b ^ 2 = bound2 n g x) :
    (∀ i l, l < i → |(gmw A).L i l| ≤ b) ∧
    ∀ i, (gmw A).e i ≤ max (max (g + i.val * b ^ 2) ((x / b + i.val * b) ^ 2)) (smallest g x) + (g + i.val * b ^ 2) := by
  have hbeta : beta A = b := by rw [beta_eq hA h, ← hb2, Real.sqrt_sq hb.le]
  obtain ⟨σ, _, hB⟩ := bounded_rounds hA n le_rfl
  rw [← hbeta, ← delta_eq hA h, ← gamma_eq h, ← xi_eq hA h]
  exact ⟨fun i l hil => hB.r l i l.2 hil, fun i => hB.e i i.2⟩

/-- **C40, no shift.** A symmetric matrix whose eigenvalues are at least machine epsilon times its size is factorised without a shift. -/
theorem C40_exact (hA : A.IsSymm) {g x : ℝ} (h : Largest A g x) (hpd : ∀ y : Fin n → ℝ, 1 / 2 ^ 52 * max (g + x) 1 * ∑ i, y i ^ 2 ≤ y ⬝ᵥ A *ᵥ y) :
    (∀ i, (gmw A).e i = 0) ∧ ((gmw A).P * (gmw A).L) * ((gmw A).P * (gmw A).L)ᵀ = A := by
  refine C40_no_shift hA fun y => ?_
  rw [delta_eq hA h]
  refine (hpd y).trans (le_of_eq ?_)
  simp only [dotProduct, mulVec, Finset.mul_sum, mul_assoc]

/-- A correlation matrix of two variables: g = 1, x = 3/4, b = 1; its eigenvalues are 1/4 and 7/4. -/
example : Largest !![(1 : ℝ), 3 / 4; 3 / 4, 1] 1 (3 / 4) ∧ (1 : ℝ) ^ 2 = bound2 2 1 (3 / 4) ∧
    ∀ y : Fin 2 → ℝ, 1 / 2 ^ 52 * max (1 + 3 / 4) 1 * ∑ i, y i ^ 2 ≤ y ⬝ᵥ !![(1 : ℝ), 3 / 4; 3 / 4, 1] *ᵥ y := by
  refine ⟨⟨?_, Or.inl ⟨0, by norm_num⟩, ?_, Or.inl ⟨0, 1, by decide, by norm_num⟩⟩, ?_, ?_⟩
  · intro i; fin_cases i <;> norm_num
  · intro i l h; fin_cases i <;> fin_cases l <;> first | exact absurd rfl h | norm_num
  · have h1 : (1 : ℝ) ≤ Real.sqrt (((2 : ℕ) : ℝ) ^ 2 - 1) := Real.le_sqrt_of_sq_le (by norm_num)
    have h2 : (3 / 4 : ℝ) / Real.sqrt (((2 : ℕ) : ℝ) ^ 2 - 1) ≤ 1 := by
      rw [div_le_one (lt_of_lt_of_le one_pos h1)]
      exact le_trans (by norm_num) h1
    rw [bound2, if_neg (by decide), max_eq_left h2, max_eq_left (by norm_num)]; norm_num
  · intro y
    rw [max_eq_left (by norm_num)]
    simp only [dotProduct, mulVec, Fin.sum_univ_two, of_apply, cons_val', cons_val_zero, cons_val_one, cons_val_fin_one]
    nlinarith [sq_nonneg (y 0 + y 1), sq_nonneg (y 0 - y 1), sq_nonneg (y 0), sq_nonneg (y 1)]

end ASAPy.Gmw
