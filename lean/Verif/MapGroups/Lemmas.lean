import Verif.MapGroups.Model
import Verif.MapGroups.Spec
import Verif.Util
import Mathlib.Data.List.Sort

set_option linter.unusedSectionVars false

namespace ASAPy.MapGroups
open ASAPy.Np

variable {K : Type*} [Field K] [LinearOrder K]

theorem min?_of_isLeast {l : List K} {m : K} (h : IsLeast {x | x ∈ l} m) : l.min? = some m := by
  rw [List.min?_eq_some_iff]
  exact ⟨h.1, fun b hb => h.2 hb⟩

theorem max?_of_isGreatest {l : List K} {m : K} (h : IsGreatest {x | x ∈ l} m) :
    l.max? = some m := by
  rw [List.max?_eq_some_iff]
  exact ⟨h.1, fun b hb => h.2 hb⟩

theorem resolveMax_eq {high : List K} {mo : Option K} {m : K} (h : EffectiveMax high mo m) :
    resolveMax mo high = .ok m := by
  rcases h with rfl | ⟨rfl, h⟩
  · rfl
  · simp [resolveMax, max?_of_isGreatest h]

theorem resolveMin_eq {high : List K} {mo : Option K} {m : K} (h : EffectiveMin high mo m) :
    resolveMin mo high = .ok m := by
  rcases h with rfl | ⟨rfl, lo, h, rfl⟩
  · rfl
  · simp [resolveMin, min?_of_isLeast h]

theorem insertionSort_eq_reverse {l : List K} (h : l.Pairwise (· > ·)) :
    l.insertionSort (· ≤ ·) = l.reverse := by
  have hr : l.reverse.Pairwise (· ≤ ·) := by
    rw [List.pairwise_reverse]
    exact h.imp (fun hab => le_of_lt hab)
  exact ((List.perm_insertionSort _ l).trans (List.reverse_perm l).symm).eq_of_pairwise'
    (List.pairwise_insertionSort _ l) hr

theorem sortedBins_eq {b : K} {t : List K} {maxE minE : K} (hu : Usable (b :: t) maxE minE) :
    sortedBins (b :: t) maxE minE = .ok ((maxE :: t ++ [minE]).reverse) := by
  have hdec := hu.decreasing
  rw [List.pairwise_cons] at hdec
  have hb : b ≤ maxE := hu.max_above b (by simp)
  have hpw : (maxE :: (t ++ [minE])).Pairwise (· > ·) := by
    rw [List.pairwise_cons, List.pairwise_append]
    refine ⟨?_, hdec.2, by simp, ?_⟩
    · intro a ha
      rw [List.mem_append] at ha
      rcases ha with ha | ha
      · exact lt_of_lt_of_le (hdec.1 a ha) hb
      · simp at ha; subst ha
        exact lt_of_lt_of_le (hu.min_below b (by simp)) hb
    · intro a ha c hc
      simp at hc; subst hc
      exact hu.min_below a (by simp [ha])
  obtain ⟨lo, hlo⟩ : ∃ lo, (b :: t).min? = some lo := by
    cases h : (b :: t).min? with
    | none => simp [List.min?_eq_none_iff] at h
    | some lo => exact ⟨lo, rfl⟩
  have hne : minE ≠ lo := by
    rw [List.min?_eq_some_iff] at hlo
    exact ne_of_lt (hu.min_below lo hlo.1)
  unfold sortedBins
  rw [hlo]
  simp only [hne, if_false, List.cons_append]
  by_cases hbm : b = maxE
  · subst hbm
    simp only [ne_eq, not_true, if_false]
    rw [insertionSort_eq_reverse hpw]
  · simp only [ne_eq, hbm, not_false_eq_true, if_true, not_lt.mpr hb, if_false]
    rw [insertionSort_eq_reverse hpw]

/-- The (descending) boundary list: upper bound of group 1, ..., of group N, `minE`. -/
theorem searchsorted_bins {maxE minE e : K} {t : List K} {g : Nat}
    (hu : (maxE :: t ++ [minE]).Pairwise (· > ·))
    (hg1 : 1 ≤ g) (hgN : g ≤ t.length + 1)
    (hlo : (maxE :: t ++ [minE])[g]'(by simp; omega) < e)
    (hhi : e ≤ (maxE :: t ++ [minE])[g - 1]'(by simp; omega)) :
    searchsortedLeft ((maxE :: t ++ [minE]).reverse) e = t.length + 2 - g := by
  set d := maxE :: t ++ [minE] with hd
  have hlen : d.length = t.length + 2 := by simp [hd]
  have hpw := List.pairwise_iff_getElem.mp hu
  refine searchsortedLeft_eq _ _ _ ?_ ?_ ?_
  · simp [hlen]
  · intro i hi
    rw [List.getElem_reverse]
    by_cases hig : d.length - 1 - i = g
    · simp only [hig]; exact hlo
    · have : d[d.length - 1 - i]'(by omega) < d[g]'(by omega) :=
        hpw g (d.length - 1 - i) (by omega) (by omega) (by omega)
      exact lt_trans this hlo
  · intro h
    rw [List.getElem_reverse]
    have : d.length - 1 - (t.length + 2 - g) = g - 1 := by omega
    simp only [this]
    exact hhi

end ASAPy.MapGroups
