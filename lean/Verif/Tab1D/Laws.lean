import Verif.Tab1D.Props

/-! # Interpolation follows the law of its region (C224) -/

namespace ASAPy.Tab1D

/-- `r` at `v` follows the ENDF interpolation law between the points `(x₀, y₀)` and `(x₁, y₁)`: 1 constant, 2 linear, 3 linear in the logarithm of `x`,
4 the logarithm linear in `x`, 5 the logarithm linear in the logarithm of `x`. -/
def Follows (law : Nat) (x₀ y₀ x₁ y₁ v r : ℝ) : Prop :=
  match law with
  | 1 => r = y₀
  | 2 => (r - y₀) * (x₁ - x₀) = (y₁ - y₀) * (v - x₀)
  | 3 => (r - y₀) * (Real.log x₁ - Real.log x₀) = (y₁ - y₀) * (Real.log v - Real.log x₀)
  | 4 => 0 < r ∧ (Real.log r - Real.log y₀) * (x₁ - x₀) = (Real.log y₁ - Real.log y₀) * (v - x₀)
  | 5 => 0 < r ∧ (Real.log r - Real.log y₀) * (Real.log x₁ - Real.log x₀) = (Real.log y₁ - Real.log y₀) * (Real.log v - Real.log x₀)
  | _ => False

theorem interp_follows {law : Nat} (hlaw : 1 ≤ law ∧ law ≤ 5) {x₀ y₀ x₁ y₁ v : ℝ} (h : x₀ < x₁) (hv : x₀ ≤ v)
    (hpos : law ≤ 2 ∨ 0 < x₀ ∧ 0 < y₀ ∧ 0 < y₁) : Follows law x₀ y₀ x₁ y₁ v (interp law 0 v x₀ x₁ y₀ y₁) := by
  have hd : x₁ - x₀ ≠ 0 := (sub_pos.mpr h).ne'
  have hcase : law = 1 ∨ law = 2 ∨ law = 3 ∨ law = 4 ∨ law = 5 := by omega
  have hl : 0 < x₀ → Real.log (v / x₀) = Real.log v - Real.log x₀ ∧ Real.log (x₁ / x₀) = Real.log x₁ - Real.log x₀ ∧ Real.log x₁ - Real.log x₀ ≠ 0 := by
    intro h0
    refine ⟨Real.log_div (by linarith) h0.ne', Real.log_div (by linarith) h0.ne', ?_⟩
    exact (sub_pos.mpr (Real.log_lt_log h0 h)).ne'
  rcases hcase with rfl | rfl | rfl | rfl | rfl
  · rfl
  · simp only [Follows, interp]
    field_simp
    ring
  · obtain ⟨h0, -, -⟩ := hpos.resolve_left (by omega)
    obtain ⟨e1, e2, e3⟩ := hl h0
    simp only [Follows, interp, ExpLog.log, e1, e2]
    field_simp
    ring
  · obtain ⟨h0, hy0, hy1⟩ := hpos.resolve_left (by omega)
    simp only [Follows, interp, ExpLog.log, ExpLog.exp]
    refine ⟨by positivity, ?_⟩
    rw [Real.log_mul hy0.ne' (Real.exp_ne_zero _), Real.log_exp, Real.log_div hy1.ne' hy0.ne']
    field_simp
    ring
  · obtain ⟨h0, hy0, hy1⟩ := hpos.resolve_left (by omega)
    obtain ⟨e1, e2, e3⟩ := hl h0
    simp only [Follows, interp, ExpLog.log, ExpLog.exp]
    refine ⟨by positivity, ?_⟩
    rw [Real.log_mul hy0.ne' (Real.exp_ne_zero _), Real.log_exp, Real.log_div hy1.ne' hy0.ne', e1, e2]
    field_simp
    ring

/-- **C224.** Between two neighbouring points, away from the tolerance at the ends, the value follows the interpolation law of the region the two
points belong to. -/
theorem C224_law {t : Tab1D ℝ} (hw : WF t) {v : ℝ} {i law : Nat} (hi : i + 1 < t.x.length) (h1 : t.x[i] ≤ v) (h2 : v < t.x[i + 1])
    (hl : LawAt t i law) (hlaw : 1 ≤ law ∧ law ≤ 5) (hpos : law ≤ 2 ∨ (∀ x ∈ t.x, 0 < x) ∧ ∀ y ∈ t.y, 0 < y)
    (hfar0 : ¬ TakenFor v (t.x.head hw.nonempty)) (hfarN : ¬ TakenFor v (t.x.getLast hw.nonempty)) :
    ∃ r, eval t v = .ok r ∧
      Follows law t.x[i] (t.y[i]'(by rw [hw.len]; omega)) t.x[i + 1] (t.y[i + 1]'(by rw [hw.len]; omega)) v r := by
  refine ⟨_, eval_inside hw hi h1 h2 hl hfar0 hfarN, interp_follows hlaw (lt_of_le_of_lt h1 h2) h1 ?_⟩
  exact hpos.imp id fun h => ⟨h.1 _ (List.getElem_mem _), h.2 _ (List.getElem_mem _), h.2 _ (List.getElem_mem _)⟩

/-- **C224.** Every two neighbouring points belong to exactly one region. -/
theorem C224_one_law {K : Type*} [Field K] [LinearOrder K] [ExpLog K] {t : Tab1D K} (hw : WF t) {i : Nat} (hi : i + 1 < t.x.length) : ∃! law, LawAt t i law := by
  obtain ⟨law, hl⟩ := lawAt_exists hw hi
  refine ⟨law, hl, ?_⟩
  rintro law' ⟨k', hk', hlo', ⟨b', hb', hhi'⟩⟩
  obtain ⟨k, hk, hlo, ⟨b, hb, hhi⟩⟩ := hl
  have key : ∀ {k k' : Nat} {b : Int}, (k' = 0 ∨ ∃ b, t.breakpoints[k' - 1]? = some b ∧ b ≤ (i : Int) + 1) → t.breakpoints[k]? = some b →
      (i : Int) + 2 ≤ b → ¬ k < k' := by
    intro k k' b hlo' hb hhi hlt
    rcases hlo' with rfl | ⟨c, hc, hci⟩
    · omega
    obtain ⟨h1, e1⟩ := List.getElem?_eq_some_iff.mp hb
    obtain ⟨h2, e2⟩ := List.getElem?_eq_some_iff.mp hc
    have : b ≤ c := by
      rcases Nat.lt_or_ge k (k' - 1) with h | h
      · rw [← e1, ← e2]
        exact (List.pairwise_iff_getElem.mp hw.bp_increasing _ _ h1 h2 h).le
      · obtain rfl : k = k' - 1 := by omega
        rw [← e1, ← e2]
    omega
  have h1 := key hlo' hb hhi
  have h2 := key hlo hb' hhi'
  obtain rfl : k = k' := by omega
  rw [hk] at hk'
  exact (Option.some.inj hk').symm

/-- **C224.** A table made of points alone is linear between all of them. -/
theorem C224_default {K : Type*} [Field K] [LinearOrder K] [ExpLog K] {x y : List K} (hx : x.Pairwise (· < ·)) (hy : y.length = x.length) (hne : x ≠ []) :
    WF (linlin x y) ∧ (linlin x y).x = x ∧ (linlin x y).y = y ∧ ∀ i, i + 1 < x.length → LawAt (linlin x y) i 2 := by
  refine ⟨⟨hx, hy, hne, by simp [linlin], ?_, by simp [linlin], by simp [linlin]⟩, rfl, rfl, ?_⟩
  · have := List.length_pos_of_ne_nil hne
    simp [linlin]
    omega
  · intro i hi
    refine ⟨0, rfl, Or.inl rfl, ⟨x.length, rfl, ?_⟩⟩
    omega

/-- **C224.** Within the tolerance of an end point the value is that of the end point (of the last one, if it is near both). -/
theorem C224_ends {K : Type*} [Field K] [LinearOrder K] [ExpLog K] {t : Tab1D K} (hw : WF t) (hy : t.y ≠ []) (v : K) :
    (TakenFor v (t.x.getLast hw.nonempty) → eval t v = .ok (t.y.getLast hy)) ∧
      (TakenFor v (t.x.head hw.nonempty) → ¬ TakenFor v (t.x.getLast hw.nonempty) → eval t v = .ok (t.y.head hy)) := by
  obtain ⟨r, hr⟩ := regions_total hw v
  constructor
  · intro h
    rw [eval_eq hw v hr, if_pos (show isclose _ _ from h)]
  · intro h h'
    rw [eval_eq hw v hr, if_neg (show ¬ isclose _ _ from h'), if_pos (show isclose _ _ from h)]

-- Three regions: constant, log-log, linear.
example : LawAt (⟨[1, 2, 3, 4, 6], [10, 20, 40, 30, 5], [2, 4, 5], [1, 5, 2]⟩ : Tab1D ℝ) 2 5 :=
  ⟨1, rfl, Or.inr ⟨2, rfl, by norm_num⟩, ⟨4, rfl, by norm_num⟩⟩

example : Follows 5 1 8 4 2 2 4 := by
  refine ⟨by norm_num, ?_⟩
  rw [show (8 : ℝ) = 2 ^ 3 by norm_num, show (4 : ℝ) = 2 ^ 2 by norm_num, Real.log_pow, Real.log_pow, Real.log_one]
  push_cast
  ring

example : ∃ r, eval (linlin [1, 2, 4] [10, 20, 5] : Tab1D ℝ) 3 = .ok r ∧ (r - 20) * (4 - 2) = (5 - 20) * (3 - 2) := by
  have h := C224_default (K := ℝ) (x := [1, 2, 4]) (y := [10, 20, 5]) (by norm_num) rfl (by simp)
  exact C224_law h.1 (v := 3) (i := 1) (law := 2) (by simp [linlin]) (by norm_num [linlin]) (by norm_num [linlin]) (h.2.2.2 1 (by simp)) (by norm_num)
    (Or.inl le_rfl) (by norm_num [linlin, TakenFor]) (by norm_num [linlin, TakenFor])

end ASAPy.Tab1D
