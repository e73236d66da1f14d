import Verif.Tab1D.Spec
import Verif.Util

set_option linter.unusedSectionVars false

namespace ASAPy.Tab1D
open ASAPy.Np

variable {K : Type*} [Field K] [LinearOrder K] [ExpLog K]

theorem pyGet_nat {α : Type*} (l : List α) (i : Nat) : pyGet l (i : Int) = l[i]? := by
  simp [pyGet]

theorem searchsorted_between {xs : List K} (hs : xs.Pairwise (· < ·)) {v : K} {i : Nat}
    (hi : i + 1 < xs.length) (h1 : xs[i] ≤ v) (h2 : v < xs[i + 1]) :
    searchsortedRight xs v = i + 1 := by
  have hpw := List.pairwise_iff_getElem.mp hs
  refine searchsortedRight_eq _ _ _ (by omega) ?_ (fun _ => h2)
  intro j hj
  rcases Nat.lt_or_ge j i with h | h
  · exact le_trans (le_of_lt (hpw j i (by omega) (by omega) h)) h1
  · have : j = i := by omega
    subst this; exact h1

theorem searchsorted_below {xs : List K} {v : K} (h0 : xs ≠ [])
    (h : v < xs[0]'(List.length_pos_iff.mpr h0)) : searchsortedRight xs v = 0 :=
  searchsortedRight_eq _ _ _ (by omega) (by intro j hj; omega) (fun _ => h)

theorem searchsorted_above {xs : List K} (hs : xs.Pairwise (· < ·)) {v : K} (h0 : xs ≠ [])
    (h : xs.getLast h0 ≤ v) : searchsortedRight xs v = xs.length := by
  have hpw := List.pairwise_iff_getElem.mp hs
  refine searchsortedRight_eq _ _ _ le_rfl ?_ (by intro h; omega)
  intro j hj
  rw [List.getLast_eq_getElem] at h
  rcases Nat.lt_or_ge j (xs.length - 1) with h' | h'
  · exact le_trans (le_of_lt (hpw j _ hj (by omega) h')) h
  · have : j = xs.length - 1 := by omega
    subst this; exact h

theorem lawAt_exists {t : Tab1D K} (hw : WF t) {i : Nat} (hi : i + 1 < t.x.length) :
    ∃ law, LawAt t i law := by
  classical
  have hex : ∃ k : Nat, ∃ b, t.breakpoints[k]? = some b ∧ (i : Int) + 2 ≤ b := by
    have := hw.bp_last
    rw [List.getLast?_eq_getElem?] at this
    exact ⟨_, _, this, by omega⟩
  obtain ⟨b, hb, hib⟩ := Nat.find_spec hex
  have hklt : Nat.find hex < t.breakpoints.length := by
    have := List.getElem?_eq_some_iff.mp hb
    exact this.1
  refine ⟨t.interpolation[Nat.find hex]'(by rw [hw.laws]; exact hklt), Nat.find hex, by simp, ?_,
    b, hb, hib⟩
  by_cases h0 : Nat.find hex = 0
  · exact Or.inl h0
  · right
    refine ⟨t.breakpoints[Nat.find hex - 1]'(by omega), by simp, ?_⟩
    have := Nat.find_min hex (m := Nat.find hex - 1) (by omega)
    by_contra hcon
    exact this ⟨_, List.getElem?_eq_getElem (by omega), by omega⟩

theorem region_not_contained {t : Tab1D K} (hw : WF t) (v acc : K) (idx : Int) {k : Nat}
    (hk : k < t.breakpoints.length)
    (h : ∀ b, t.breakpoints[k]? = some b →
      (k ≠ 0 → ∀ b', t.breakpoints[k - 1]? = some b' → b' - 1 ≤ idx) → (k = 0 → 0 ≤ idx) → ¬ idx < b - 1) :
    region t v idx k acc = .ok acc := by
  have hb : t.breakpoints[k]? = some t.breakpoints[k] := List.getElem?_eq_getElem hk
  have hlaw : t.interpolation[k]? = some (t.interpolation[k]'(by rw [hw.laws]; exact hk)) :=
    List.getElem?_eq_getElem _
  unfold region
  by_cases hk0 : k = 0
  · subst hk0
    simp only [if_true, hb]
    rw [if_neg, hlaw]
    rintro ⟨h1, h2⟩
    exact h _ hb (by simp) (fun _ => h1) h2
  · have hb' : t.breakpoints[k - 1]? = some (t.breakpoints[k - 1]'(by omega)) :=
      List.getElem?_eq_getElem _
    simp only [hk0, if_false, hb', hb, Option.map_some]
    rw [if_neg, hlaw]
    rintro ⟨h1, h2⟩
    refine h _ hb ?_ (fun h => (hk0 h).elim) h2
    intro _ b' hb''
    rw [hb'] at hb''
    cases hb''
    exact h1

theorem foldlM_range_ok {ε : Type*} (f : K → Nat → Except ε K) (n : Nat) (g : Nat → K) (a : K)
    (h0 : g 0 = a) (hstep : ∀ k, k < n → f (g k) k = .ok (g (k + 1))) :
    (List.range n).foldlM f a = .ok (g n) := by
  subst h0
  induction n with
  | zero => rfl
  | succ n ih =>
    rw [List.range_succ, List.foldlM_append, ih (fun k hk => hstep k (by omega))]
    simp [bind, Except.bind, hstep n (by omega), pure, Except.pure]

/-- Between two neighbouring points the region loop applies the law of that interval. -/
theorem regions_between {t : Tab1D K} (hw : WF t) {v : K} {i law : Nat}
    (hi : i + 1 < t.x.length) (h1 : t.x[i] ≤ v) (h2 : v < t.x[i + 1]) (hl : LawAt t i law) :
    regions t v = .ok (interp law 0 v (t.x[i]) (t.x[i + 1])
      (t.y[i]'(by rw [hw.len]; omega)) (t.y[i + 1]'(by rw [hw.len]; omega))) := by
  obtain ⟨k, hlaw, hprev, bk, hbk, hbki⟩ := hl
  have hpw := List.pairwise_iff_getElem.mp hw.bp_increasing
  have hklt : k < t.breakpoints.length := (List.getElem?_eq_some_iff.mp hbk).1
  have hbk' : t.breakpoints[k] = bk := (List.getElem?_eq_some_iff.mp hbk).2
  have hss := searchsorted_between hw.increasing hi h1 h2
  unfold regions
  simp only [hss]
  have hidx : ((i + 1 : Nat) : Int) - 1 = (i : Int) := by push_cast; omega
  rw [hidx]
  set r := interp law 0 v (t.x[i]) (t.x[i + 1])
      (t.y[i]'(by rw [hw.len]; omega)) (t.y[i + 1]'(by rw [hw.len]; omega)) with hr
  have := foldlM_range_ok (ε := PyErr) (fun acc k => region t v (i : Int) k acc) t.breakpoints.length
    (fun j => if k < j then r else 0) 0 (by simp) (by
      intro j hj
      rcases lt_trichotomy j k with hjk | hjk | hjk
      · -- an earlier region ends before the interval
        have : ¬ k < j := by omega
        have h' : ¬ k < j + 1 := by omega
        simp only [this, h', if_false]
        apply region_not_contained hw _ _ _ hj
        intro b hb _ _ hlt
        rcases hprev with h0 | ⟨b', hb', hle⟩
        · omega
        · have hb'' := List.getElem?_eq_some_iff.mp hb'
          have hbj := List.getElem?_eq_some_iff.mp hb
          obtain ⟨hk1, rfl⟩ := hb''
          obtain ⟨_, rfl⟩ := hbj
          by_cases hjk1 : j = k - 1
          · subst hjk1; omega
          · have := hpw j (k - 1) hj hk1 (by omega)
            omega
      · subst hjk
        have h' : j < j + 1 := by omega
        simp only [lt_irrefl, if_false, h', if_true]
        unfold region
        have hbeg : ∃ ib, (if j = 0 then some (0 : Int) else (t.breakpoints[j - 1]?).map (· - 1)) = some ib
            ∧ ib ≤ (i : Int) := by
          rcases hprev with h0 | ⟨b', hb', hle⟩
          · exact ⟨0, by simp [h0], by omega⟩
          · by_cases h0 : j = 0
            · exact ⟨0, by simp [h0], by omega⟩
            · exact ⟨b' - 1, by simp [h0, hb'], by omega⟩
        obtain ⟨ib, hib, hible⟩ := hbeg
        rw [hib, hbk]
        have hcond : ib ≤ (i : Int) ∧ (i : Int) < bk - 1 := ⟨hible, by omega⟩
        simp only [hcond, and_self, if_true]
        have hi1 : ((i : Int) + 1) = ((i + 1 : Nat) : Int) := by push_cast; rfl
        rw [hi1]
        simp only [pyGet_nat]
        have e1 : t.x[i]? = some t.x[i] := List.getElem?_eq_getElem _
        have e2 : t.x[i + 1]? = some t.x[i + 1] := List.getElem?_eq_getElem _
        have e3 : t.y[i]? = some (t.y[i]'(by rw [hw.len]; omega)) := List.getElem?_eq_getElem _
        have e4 : t.y[i + 1]? = some (t.y[i + 1]'(by rw [hw.len]; omega)) := List.getElem?_eq_getElem _
        rw [e1, e2, e3, e4, hlaw]
      · have : k < j + 1 := by omega
        simp only [hjk, this, if_true]
        apply region_not_contained hw _ _ _ hj
        intro b hb hbeg _ _
        have hb' : t.breakpoints[j - 1]? = some (t.breakpoints[j - 1]'(by omega)) :=
          List.getElem?_eq_getElem _
        have h3 := hbeg (by omega) _ hb'
        by_cases hjk1 : j - 1 = k
        · have : t.breakpoints[j-1] = bk := by rw [← hbk']; congr
          omega
        · have := hpw k (j - 1) hklt (by omega) (by omega)
          omega)
  rw [this]
  simp [hklt]

/-- Below the first and from the last point on, the region loop leaves 0. -/
theorem regions_outside {t : Tab1D K} (hw : WF t) {v : K}
    (h : v < t.x.head hw.nonempty ∨ t.x.getLast hw.nonempty ≤ v) :
    regions t v = .ok 0 := by
  have hmem : ∀ (k : Nat) b, t.breakpoints[k]? = some b → 1 ≤ b ∧ b ≤ (t.x.length : Int) := by
    intro k b hb
    refine ⟨hw.bp_pos b (List.mem_of_getElem? hb), ?_⟩
    have hpw := List.pairwise_iff_getElem.mp hw.bp_increasing
    have hl := hw.bp_last
    rw [List.getLast?_eq_getElem?, List.getElem?_eq_some_iff] at hl
    obtain ⟨hl1, hl2⟩ := hl
    obtain ⟨hk, rfl⟩ := List.getElem?_eq_some_iff.mp hb
    by_cases hkl : k = t.breakpoints.length - 1
    · subst hkl; omega
    · have := hpw k _ hk hl1 (by omega)
      omega
  unfold regions
  have key : ∀ idx : Int, (idx = -1 ∨ idx = (t.x.length : Int) - 1) →
      (List.range t.breakpoints.length).foldlM (fun acc k => region t v idx k acc) (0 : K)
        = Except.ok 0 := by
    intro idx hidx
    refine foldlM_range_ok (ε := PyErr) (fun acc k => region t v idx k acc) _ (fun _ => 0) 0 rfl ?_
    intro k hk
    apply region_not_contained hw _ _ _ hk
    intro b hb hbeg hbeg0 hlt
    have hbm := hmem k b hb
    rcases hidx with rfl | rfl
    · by_cases hk0 : k = 0
      · have := hbeg0 hk0; omega
      · have hb' : t.breakpoints[k - 1]? = some (t.breakpoints[k - 1]'(by omega)) :=
          List.getElem?_eq_getElem _
        have h1 := hbeg hk0 _ hb'
        have h2 := hmem _ _ hb'
        omega
    · omega
  rcases h with h | h
  · have hss : searchsortedRight t.x v = 0 := by
      apply searchsorted_below hw.nonempty
      rwa [List.head_eq_getElem] at h
    simp only [hss]
    exact key _ (Or.inl (by simp))
  · have hss : searchsortedRight t.x v = t.x.length := searchsorted_above hw.increasing hw.nonempty h
    simp only [hss]
    exact key _ (Or.inr rfl)

theorem eval_eq {t : Tab1D K} (hw : WF t) (v : K) {r : K} (h : regions t v = .ok r) :
    eval t v = .ok (
      if isclose v (t.x.getLast hw.nonempty) then
        t.y.getLast (by have := hw.nonempty; intro h0; apply this; have := hw.len; rw [h0] at this; simpa using this.symm)
      else if isclose v (t.x.head hw.nonempty) then
        t.y.head (by have := hw.nonempty; intro h0; apply this; have := hw.len; rw [h0] at this; simpa using this.symm)
      else r) := by
  have hy : t.y ≠ [] := by
    have := hw.nonempty; intro h0; apply this; have := hw.len; rw [h0] at this; simpa using this.symm
  unfold eval
  rw [h]
  simp only [bind, Except.bind, List.head?_eq_some_head hw.nonempty, List.head?_eq_some_head hy,
    List.getLast?_eq_some_getLast hw.nonempty, List.getLast?_eq_some_getLast hy]

end ASAPy.Tab1D
