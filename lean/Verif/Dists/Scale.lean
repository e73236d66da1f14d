import Verif.Dists.Lemmas

/-! # Tables in other units -/

set_option linter.unusedSimpArgs false
set_option linter.unusedSectionVars false

namespace ASAPy.Dists
open ASAPy.Tab1D ASAPy.Np

section
variable {K : Type} [Field K] [LinearOrder K] [ExpLog K]

theorem pyGet_map {α β : Type} (f : α → β) (l : List α) (i : Int) : pyGet (l.map f) i = (pyGet l i).map f := by
  unfold pyGet
  rw [List.length_map]
  split_ifs <;> simp

/-- The table with its energies multiplied by `e` and its values by `c`. -/
def units (e c : K) (t : Tab1D K) : Tab1D K := { t with x := t.x.map (· * e), y := t.y.map (· * c) }

theorem interp_units {e c : K} (he : e ≠ 0) (law : Nat) (old v xi xi1 yi yi1 : K) :
    interp law (old * c) (v * e) (xi * e) (xi1 * e) (yi * c) (yi1 * c) = interp law old v xi xi1 yi yi1 * c := by
  have h1 : (v * e - xi * e) / (xi1 * e - xi * e) = (v - xi) / (xi1 - xi) := by rw [← sub_mul, ← sub_mul, mul_div_mul_right _ _ he]
  have h2 : v * e / (xi * e) = v / xi := mul_div_mul_right _ _ he
  have h3 : xi1 * e / (xi * e) = xi1 / xi := mul_div_mul_right _ _ he
  unfold interp
  split
  · rfl
  · rw [h1]; ring
  · rw [h2, h3]; ring
  · by_cases hc : c = 0
    · simp [hc]
    · rw [h1, mul_div_mul_right _ _ hc]; ring
  · by_cases hc : c = 0
    · simp [hc]
    · rw [h2, h3, mul_div_mul_right _ _ hc]; ring
  · rfl

theorem region_units {e : K} (he : e ≠ 0) (c : K) (t : Tab1D K) (v : K) (idx : Int) (k : Nat) (acc : K) :
    region (units e c t) (v * e) idx k (acc * c) = (region t v idx k acc).map (· * c) := by
  unfold region
  simp only [units, pyGet_map]
  generalize (if k = 0 then some (0 : Int) else Option.map (fun x => x - 1) t.breakpoints[k - 1]?) = b0
  generalize t.breakpoints[k]? = b1
  cases b0 with
  | none => rfl
  | some i0 => cases b1 with
    | none => rfl
    | some i1 =>
      simp only
      split_ifs
      · generalize pyGet t.x idx = o1
        generalize pyGet t.x (idx + 1) = o2
        generalize pyGet t.y idx = o3
        generalize pyGet t.y (idx + 1) = o4
        generalize t.interpolation[k]? = o5
        cases o1 <;> cases o2 <;> cases o3 <;> cases o4 <;> cases o5 <;> simp [Except.map, interp_units he]
      · generalize t.interpolation[k]? = o5
        cases o5 <;> rfl

theorem foldlM_units {e : K} (he : e ≠ 0) (c : K) (t : Tab1D K) (v : K) (idx : Int) : ∀ (l : List Nat) (acc : K),
    l.foldlM (fun acc k => region (units e c t) (v * e) idx k acc) (acc * c) = (l.foldlM (fun acc k => region t v idx k acc) acc).map (· * c)
  | [], acc => rfl
  | k :: l, acc => by
    simp only [List.foldlM_cons, region_units he]
    cases region t v idx k acc with
    | error e => rfl
    | ok r => exact foldlM_units he c t v idx l r

variable [IsStrictOrderedRing K]

theorem searchsorted_units {e : K} (he : 0 < e) (l : List K) (v : K) : searchsortedRight (l.map (· * e)) (v * e) = searchsortedRight l v := by
  simp only [searchsortedRight]
  induction l with
  | nil => rfl
  | cons a l ih =>
    simp only [List.map_cons, List.takeWhile_cons, mul_le_mul_iff_left₀ he]
    split_ifs
    · simp [ih]
    · rfl

theorem regions_units {e : K} (he : 0 < e) (c : K) (t : Tab1D K) (v : K) : regions (units e c t) (v * e) = (regions t v).map (· * c) := by
  unfold regions
  have : searchsortedRight (units e c t).x (v * e) = searchsortedRight t.x v := searchsorted_units he t.x v
  rw [this]
  have := foldlM_units (ne_of_gt he) c t v ((searchsortedRight t.x v : Int) - 1) (List.range t.breakpoints.length) 0
  rw [zero_mul] at this
  exact this

/-- What is close in the smaller unit is close in the larger one. -/
theorem close_units {e : K} (he : 1 ≤ e) {a b : K} (h : isclose (a * e) (b * e)) : isclose a b := by
  unfold isclose at *
  have he0 : 0 < e := lt_of_lt_of_le zero_lt_one he
  rw [← sub_mul, abs_mul, abs_mul, abs_of_pos he0] at h
  have h14 : (0 : K) ≤ 1 / 10 ^ 14 := by positivity
  nlinarith [mul_le_mul_of_nonneg_left he h14, abs_nonneg (a - b), abs_nonneg b]

/-- The table in other units is the same function, except for arguments that are taken for an end point in one of the units only. -/
theorem eval_units {e : K} (he : 0 < e) (c : K) (t : Tab1D K) (v : K) (h0 : ∀ x0, t.x.head? = some x0 → (isclose (v * e) (x0 * e) ↔ isclose v x0))
    (h1 : ∀ xn, t.x.getLast? = some xn → (isclose (v * e) (xn * e) ↔ isclose v xn)) : eval (units e c t) (v * e) = (eval t v).map (· * c) := by
  unfold eval
  simp only [bind, Except.bind, regions_units he]
  cases regions t v with
  | error err => rfl
  | ok r =>
    simp only [Except.map, units, List.head?_map, List.getLast?_map]
    cases hx0 : t.x.head? with
    | none => rfl
    | some x0 => cases t.y.head? with
      | none => rfl
      | some y0 => cases hxn : t.x.getLast? with
        | none => rfl
        | some xn => cases t.y.getLast? with
          | none => rfl
          | some yn =>
            simp only [Option.map_some]
            rw [if_congr (h1 xn hxn) rfl rfl]
            by_cases hn : isclose v xn
            · simp [hn]
            · rw [if_neg hn, if_neg hn, if_congr (h0 x0 hx0) rfl rfl]
              split_ifs <;> rfl

/-- Multiplying the values. -/
theorem eval_scaleY (c : K) (t : Tab1D K) (v : K) : eval (scaleY c t) v = (eval t v).map (· * c) := by
  have := eval_units (e := 1) zero_lt_one c t v (by simp) (by simp)
  have hu : units 1 c t = scaleY c t := by simp [units, scaleY]
  rwa [hu, mul_one] at this

end
end ASAPy.Dists
