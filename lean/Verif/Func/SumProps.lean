import Verif.Func.Spec
import Verif.Tab1D.Props

/-! # Sums of functions (C101) -/

set_option linter.unusedSectionVars false

namespace ASAPy.Func
open ASAPy.Tab1D

variable {K : Type*} [Field K] [LinearOrder K] [IsStrictOrderedRing K] [ExpLog K]

theorem polyEval_add (a b : List K) (v : K) : polyEval (addCoeffs a b) v = polyEval a v + polyEval b v := by
  induction a generalizing b with
  | nil => simp [addCoeffs, polyEval]
  | cons x a ih =>
    cases b with
    | nil => simp [addCoeffs, polyEval]
    | cons y b =>
      simp only [addCoeffs, polyEval, ih]
      ring

theorem foldl_addCoeffs (v : K) (ps : List (List K)) (acc : List K) :
    polyEval (ps.foldl addCoeffs acc) v = polyEval acc v + (ps.map fun c => polyEval c v).sum := by
  induction ps generalizing acc with
  | nil => simp
  | cons p ps ih => simp only [List.foldl_cons, ih, polyEval_add, List.map_cons, List.sum_cons]; ring

theorem sumAt_polys {fs : List (Fn K)} (h : tabs fs = []) (v : K) : sumAt fs v = .ok (((polys fs).map fun c => polyEval c v).sum) := by
  unfold sumAt
  suffices hs : fs.mapM (fun f => Fn.eval f v) = .ok ((polys fs).map fun c => polyEval c v) by rw [hs]; rfl
  induction fs with
  | nil => rfl
  | cons f fs ih =>
    cases f with
    | tab t => simp [tabs] at h
    | poly c =>
      simp only [tabs] at h
      rw [List.mapM_cons, ih h]
      rfl

theorem mapM_ok_iff {α β : Type*} {g : α → Except PyErr β} (l : List α) (ys : List β) : l.mapM g = .ok ys ↔ List.Forall₂ (fun x y => g x = .ok y) l ys := by
  induction l generalizing ys with
  | nil => cases ys <;> simp [pure, Except.pure]
  | cons x l ih =>
    rw [List.mapM_cons]
    cases hx : g x with
    | error e =>
      constructor
      · intro h; simp [bind, Except.bind] at h
      · intro h; cases h with | cons h1 _ => rw [hx] at h1; simp at h1
    | ok y =>
      cases hl : l.mapM g with
      | error e =>
        constructor
        · intro h; simp [bind, Except.bind] at h
        · intro h
          cases h with
          | cons _ h2 => have := (ih _).mpr h2; rw [hl] at this; simp at this
      | ok zs =>
        constructor
        · intro h
          simp only [bind, Except.bind, pure, Except.pure, Except.ok.injEq] at h
          subst h
          exact .cons hx ((ih zs).mp hl)
        · intro h
          cases h with
          | cons h1 h2 =>
            rw [hx] at h1
            have := (ih _).mpr h2
            rw [hl] at this
            simp only [Except.ok.injEq] at h1 this
            subst h1; subst this
            rfl

theorem sumAt_iff (fs : List (Fn K)) (v s : K) : sumAt fs v = .ok s ↔ IsSum fs v s := by
  unfold sumAt IsSum
  constructor
  · intro h
    cases hm : fs.mapM (fun f => Fn.eval f v) with
    | error e => rw [hm] at h; simp [Except.map] at h
    | ok ys =>
      rw [hm] at h
      simp only [Except.map, Except.ok.injEq] at h
      exact ⟨ys, (mapM_ok_iff _ _).mp hm, h.symm⟩
  · rintro ⟨ys, h, rfl⟩
    rw [(mapM_ok_iff _ _).mpr h]
    rfl

theorem sum_polys {fs : List (Fn K)} (h : tabs fs = []) (hne : fs ≠ []) (hc : ∀ c ∈ polys fs, c ≠ []) :
    sumFunctions fs = .ok (.poly ((polys fs).foldl addCoeffs [])) ∧ (polys fs).foldl addCoeffs [] ≠ [] ∧
      ∀ v, ∃ s, Fn.eval (.poly ((polys fs).foldl addCoeffs [])) v = .ok s ∧ IsSum fs v s := by
  have hnz : (polys fs).foldl addCoeffs [] ≠ [] := by
    have key : ∀ (ps : List (List K)) acc, acc ≠ [] → ps.foldl addCoeffs acc ≠ [] := by
      intro ps
      induction ps with
      | nil => intro acc h; exact h
      | cons p ps ih =>
        intro acc h
        rw [List.foldl_cons]
        apply ih
        cases acc with
        | nil => exact absurd rfl h
        | cons x acc => cases p <;> simp [addCoeffs]
    cases fs with
    | nil => exact absurd rfl hne
    | cons f fs =>
      cases f with
      | tab t => simp [tabs] at h
      | poly c =>
        simp only [polys, List.foldl_cons, addCoeffs]
        exact key _ _ (hc c (by simp [polys]))
  refine ⟨?_, hnz, ?_⟩
  · unfold sumFunctions
    simp [h, hnz]
  · intro v
    refine ⟨_, rfl, (sumAt_iff _ _ _).mp ?_⟩
    rw [sumAt_polys h]
    simp [foldl_addCoeffs, polyEval]

/-- **C101** for polynomials: the sum of polynomials (which have at least one coefficient each) is a polynomial and, at every argument, the sum of their values. -/
theorem C101_polynomials {fs : List (Fn K)} (hfs : ∀ f ∈ fs, ∃ c, f = .poly c ∧ c ≠ []) (hne : fs ≠ []) :
    ∃ c, sumFunctions fs = .ok (.poly c) ∧ c ≠ [] ∧ ∀ v, ∃ s, Fn.eval (.poly c) v = .ok s ∧ IsSum fs v s := by
  have h : tabs fs = [] ∧ ∀ c ∈ polys fs, c ≠ [] := by
    clear hne
    induction fs with
    | nil => simp [tabs, polys]
    | cons f fs ih =>
      obtain ⟨c, rfl, hc⟩ := hfs f (by simp)
      obtain ⟨h1, h2⟩ := ih fun g hg => hfs g (by simp [hg])
      refine ⟨h1, ?_⟩
      simp only [polys, List.mem_cons]
      rintro d (rfl | hd)
      · exact hc
      · exact h2 d hd
  obtain ⟨h1, h2, h3⟩ := sum_polys h.1 hne h.2
  exact ⟨_, h1, h2, h3⟩

/-! ### Tables -/

/-- Between two neighbouring grid points (both included) the value is the one on the straight line. -/
theorem lin_eval {a b : K} {t : Tab1D K} (h : LinTab a b t) (hab : ¬ isclose a b) {i : Nat} (hi : i + 1 < t.x.length) {v : K} (h1 : t.x[i] ≤ v) (h2 : v ≤ t.x[i + 1])
    (hf : Fine a b v) :
    t.eval v = .ok (t.y[i]'(by rw [h.wf.len]; omega) + (v - t.x[i]) / (t.x[i + 1] - t.x[i]) * (t.y[i + 1]'(by rw [h.wf.len]; omega) - t.y[i]'(by rw [h.wf.len]; omega))) := by
  obtain ⟨hw, hlaw, hfirst, hlast, _⟩ := h
  have hpw := List.pairwise_iff_getElem.mp hw.increasing
  have hlen : 0 < t.x.length := List.length_pos_of_ne_nil hw.nonempty
  have hx0 : t.x[0] = a := by rw [← hfirst, List.head_eq_getElem]
  have hxn : t.x[t.x.length - 1] = b := by rw [← hlast, List.getLast_eq_getElem]
  have hlen' := hw.len
  have hx01 : t.x[i] < t.x[i + 1] := hpw i (i + 1) (by omega) hi (by omega)
  have hlawAt : ∀ j, j + 1 < t.x.length → LawAt t j 2 := by
    intro j hj
    obtain ⟨law, hl⟩ := lawAt_exists hw hj
    obtain ⟨k, hk, hr⟩ := hl
    have := hlaw law (List.mem_of_getElem? hk)
    subst this
    exact ⟨k, hk, hr⟩
  rcases lt_or_eq_of_le h2 with hv | hv
  · have hreg := regions_between hw hi h1 hv (hlawAt i hi)
    rw [eval_eq hw v hreg, hfirst, hlast]
    have hvb : v ≠ b := by
      rintro rfl
      have : t.x[i + 1] ≤ v := by
        rw [← hxn]
        rcases Nat.lt_or_ge (i + 1) (t.x.length - 1) with h | h
        · exact le_of_lt (hpw _ _ _ _ h)
        · have : i + 1 = t.x.length - 1 := by omega
          simp only [this]
          exact le_rfl
      exact absurd hv (not_lt.mpr this)
    rcases hf with rfl | hf | ⟨hf1, hf2⟩
    · rw [if_neg hab, if_pos (isclose_self _)]
      have hi0 : i = 0 := by
        by_contra hne
        have := hpw 0 i hlen (by omega) (by omega)
        rw [hx0] at this
        exact absurd h1 (not_le.mpr this)
      subst hi0
      rw [hx0]
      simp [List.head_eq_getElem]
    · exact absurd hf hvb
    · rw [if_neg (show ¬ isclose v b from hf2), if_neg (show ¬ isclose v a from hf1)]
      rfl
  · have hgoal : t.y[i]'(by omega) + (v - t.x[i]) / (t.x[i + 1] - t.x[i]) * (t.y[i + 1]'(by omega) - t.y[i]'(by omega)) = t.y[i + 1]'(by omega) := by
      rw [hv, div_self (sub_ne_zero.mpr (ne_of_gt hx01))]
      ring
    rw [hgoal]
    have hva : a < v := by
      rw [hv, ← hx0]
      exact hpw 0 (i + 1) hlen hi (by omega)
    rcases Nat.lt_or_ge (i + 1) (t.x.length - 1) with hl | hl
    · have hreg := regions_between hw (i := i + 1) (by omega) (le_of_eq hv.symm) (by rw [hv]; exact hpw (i + 1) (i + 2) hi (by omega) (by omega)) (hlawAt (i + 1) (by omega))
      rw [eval_eq hw v hreg, hfirst, hlast]
      have hvb : v ≠ b := by
        rw [hv, ← hxn]
        exact ne_of_lt (hpw _ _ _ _ hl)
      rcases hf with hf | hf | ⟨hf1, hf2⟩
      · exact absurd hf (ne_of_gt hva)
      · exact absurd hf hvb
      · rw [if_neg (show ¬ isclose v b from hf2), if_neg (show ¬ isclose v a from hf1)]
        simp [interp, hv]
    · have hi1 : i + 1 = t.x.length - 1 := by omega
      have hvb : v = b := by
        rw [hv, ← hxn]
        simp only [hi1]
      rw [eval_eq hw v (regions_outside hw (Or.inr (by rw [hlast, hvb]))), hlast, if_pos (by rw [hvb]; exact isclose_self b)]
      congr 1
      rw [List.getLast_eq_getElem]
      congr 1
      omega

/-- On an interval without inner grid points, a table is affine. -/
theorem tab_affine {a b : K} {t : Tab1D K} (h : LinTab a b t) (hab : ¬ isclose a b) {p q : K} (hap : a ≤ p) (hpq : p < q) (hqb : q ≤ b)
    (hno : ∀ x ∈ t.x, x ≤ p ∨ q ≤ x) : ∃ m c, ∀ v, p ≤ v → v ≤ q → Fine a b v → t.eval v = .ok (m * v + c) := by
  have hlen : 0 < t.x.length := List.length_pos_of_ne_nil h.wf.nonempty
  have hx0 : t.x[0] = a := by rw [← h.first, List.head_eq_getElem]
  have hxn : t.x[t.x.length - 1] = b := by rw [← h.last, List.getLast_eq_getElem]
  obtain ⟨i, hi, h1, h2⟩ : ∃ i, ∃ hi : i + 1 < t.x.length, t.x[i] ≤ p ∧ p < t.x[i + 1] := by
    have hex : ∃ j : Nat, ∃ hj : j < t.x.length, p < t.x[j] := ⟨t.x.length - 1, by omega, by rw [hxn]; exact lt_of_lt_of_le hpq hqb⟩
    classical
    obtain ⟨hj, hpj⟩ := Nat.find_spec hex
    have hpos : Nat.find hex ≠ 0 := by
      intro h0
      have : p < t.x[0] := by
        have := hpj
        simp only [h0] at this
        exact this
      rw [hx0] at this
      exact absurd hap (not_le.mpr this)
    obtain ⟨i, hi⟩ := Nat.exists_eq_succ_of_ne_zero hpos
    have hmin := Nat.find_min hex (m := i) (by omega)
    refine ⟨i, by omega, ?_, ?_⟩
    · by_contra hcon
      exact hmin ⟨by omega, not_le.mp hcon⟩
    · have := hpj
      simp only [hi] at this
      exact this
  have hq : q ≤ t.x[i + 1] := by
    rcases hno t.x[i + 1] (List.getElem_mem _) with h | h
    · exact absurd h2 (not_lt.mpr h)
    · exact h
  have hd : t.x[i + 1] - t.x[i] ≠ 0 := sub_ne_zero.mpr (ne_of_gt (lt_of_le_of_lt h1 h2))
  have hlen' := h.wf.len
  refine ⟨(t.y[i + 1]'(by omega) - t.y[i]'(by omega)) / (t.x[i + 1] - t.x[i]),
    t.y[i]'(by omega) - (t.y[i + 1]'(by omega) - t.y[i]'(by omega)) / (t.x[i + 1] - t.x[i]) * t.x[i], ?_⟩
  intro v hpv hvq hf
  rw [lin_eval h hab hi (le_trans h1 hpv) (le_trans hvq hq) hf]
  congr 1
  field_simp
  ring

theorem sum_affine {a b : K} (hab : ¬ isclose a b) {p q : K} (hap : a ≤ p) (hpq : p < q) (hqb : q ≤ b) (fs : List (Fn K)) (hfs : ∀ f ∈ fs, Affine a b f)
    (hno : ∀ t ∈ tabs fs, ∀ x ∈ t.x, x ≤ p ∨ q ≤ x) : ∃ m c, ∀ v, p ≤ v → v ≤ q → Fine a b v → sumAt fs v = .ok (m * v + c) := by
  induction fs with
  | nil => exact ⟨0, 0, fun v _ _ _ => by simp [sumAt, pure, Except.pure, Except.map]⟩
  | cons f fs ih =>
    obtain ⟨m, c, hmc⟩ := ih (fun g hg => hfs g (List.mem_cons_of_mem _ hg)) (fun t ht => hno t (by cases f <;> simp [tabs, ht]))
    have hf : ∃ m c, ∀ v, p ≤ v → v ≤ q → Fine a b v → f.eval v = .ok (m * v + c) := by
      have haf := hfs f (by simp)
      cases f with
      | tab t => exact tab_affine haf hab hap hpq hqb (hno t (by simp [tabs]))
      | poly cs =>
        match cs, haf.2 with
        | [], _ => exact ⟨0, 0, fun v _ _ _ => by simp [Fn.eval, polyEval]⟩
        | [x], _ => exact ⟨0, x, fun v _ _ _ => by simp [Fn.eval, polyEval]⟩
        | [x, y], _ => exact ⟨y, x, fun v _ _ _ => by simp only [Fn.eval, polyEval]; congr 1; ring⟩
    obtain ⟨m', c', hmc'⟩ := hf
    refine ⟨m' + m, c' + c, fun v h1 h2 h3 => ?_⟩
    have e1 := hmc v h1 h2 h3
    unfold sumAt at e1 ⊢
    rw [List.mapM_cons, hmc' v h1 h2 h3]
    cases hm : fs.mapM (fun f => Fn.eval f v) with
    | error e => rw [hm] at e1; simp [Except.map] at e1
    | ok l =>
      rw [hm] at e1
      simp only [Except.map, Except.ok.injEq] at e1
      simp only [bind, Except.bind, pure, Except.pure, Except.map, List.sum_cons, e1]
      congr 1
      ring

/-! ### The union of the grids -/

theorem mem_union1d (a b : List K) (v : K) : v ∈ union1d a b ↔ v ∈ a ∨ v ∈ b := by
  simp [union1d, List.mem_insertionSort]

theorem union1d_increasing (a b : List K) : (union1d a b).Pairwise (· < ·) := by
  have h1 : (union1d a b).Pairwise (· ≤ ·) := List.pairwise_insertionSort (· ≤ ·) _
  have h2 : (union1d a b).Nodup := (List.perm_insertionSort _ _).nodup_iff.mpr (List.nodup_dedup _)
  exact (h1.and h2).imp fun h => lt_of_le_of_ne h.1 h.2

theorem unionAll_spec (xs : List (List K)) (hx : ∀ x ∈ xs, x.Pairwise (· < ·)) :
    (unionAll xs).Pairwise (· < ·) ∧ ∀ v, v ∈ unionAll xs ↔ ∃ x ∈ xs, v ∈ x := by
  cases xs with
  | nil => simp [unionAll]
  | cons x xs =>
    have key : ∀ (xs : List (List K)) (acc : List K), acc.Pairwise (· < ·) →
        (xs.foldl union1d acc).Pairwise (· < ·) ∧ ∀ v, v ∈ xs.foldl union1d acc ↔ v ∈ acc ∨ ∃ x ∈ xs, v ∈ x := by
      intro xs
      induction xs with
      | nil => intro acc h; simpa using h
      | cons y ys ih =>
        intro acc _
        obtain ⟨h1, h2⟩ := ih (union1d acc y) (union1d_increasing _ _)
        refine ⟨h1, fun v => ?_⟩
        rw [List.foldl_cons, h2, mem_union1d]
        simp [or_assoc]
    obtain ⟨h1, h2⟩ := key xs x (hx x (by simp))
    exact ⟨h1, fun v => by rw [unionAll, h2]; simp⟩

theorem linlin_wf {x y : List K} (hx : x.Pairwise (· < ·)) (hy : y.length = x.length) (hne : x ≠ []) : WF (linlin x y) where
  increasing := hx
  len := hy
  nonempty := hne
  bp_increasing := by simp [linlin]
  bp_pos := by
    have := List.length_pos_of_ne_nil hne
    simp [linlin]
    omega
  bp_last := by simp [linlin]
  laws := by simp [linlin]

theorem mem_tabs {fs : List (Fn K)} {t : Tab1D K} : t ∈ tabs fs ↔ Fn.tab t ∈ fs := by
  induction fs with
  | nil => simp [tabs]
  | cons f fs ih => cases f <;> simp [tabs, ih]

theorem head_le_of_increasing {x : List K} (hx : x.Pairwise (· < ·)) (hne : x ≠ []) : ∀ v ∈ x, x.head hne ≤ v := by
  cases x with
  | nil => exact absurd rfl hne
  | cons a x =>
    intro v hv
    rcases List.mem_cons.mp hv with rfl | hv
    · exact le_rfl
    · exact le_of_lt (List.rel_of_pairwise_cons hx hv)

theorem le_last_of_increasing {x : List K} (hx : x.Pairwise (· < ·)) (hne : x ≠ []) : ∀ v ∈ x, v ≤ x.getLast hne := by
  intro v hv
  obtain ⟨i, hi, rfl⟩ := List.getElem_of_mem hv
  rw [List.getLast_eq_getElem]
  rcases Nat.lt_or_ge i (x.length - 1) with h | h
  · exact le_of_lt (List.pairwise_iff_getElem.mp hx _ _ _ _ h)
  · have : i = x.length - 1 := by omega
    subst this
    exact le_rfl

/-- Between two neighbouring points of an increasing list there is no other. -/
theorem gap {x : List K} (hx : x.Pairwise (· < ·)) {i : Nat} (hi : i + 1 < x.length) : ∀ v ∈ x, v ≤ x[i] ∨ x[i + 1] ≤ v := by
  intro v hv
  have hpw := List.pairwise_iff_getElem.mp hx
  obtain ⟨j, hj, rfl⟩ := List.getElem_of_mem hv
  rcases Nat.lt_trichotomy j i with h | h | h
  · exact Or.inl (le_of_lt (hpw _ _ _ _ h))
  · subst h; exact Or.inl le_rfl
  · rcases Nat.lt_or_ge (i + 1) j with h' | h'
    · exact Or.inr (le_of_lt (hpw _ _ _ _ h'))
    · have : j = i + 1 := by omega
      subst this
      exact Or.inr le_rfl

theorem addCoeffs_length (x y : List K) : (addCoeffs x y).length = max x.length y.length := by
  induction x generalizing y with
  | nil => simp [addCoeffs]
  | cons a x ih =>
    cases y with
    | nil => simp [addCoeffs]
    | cons b y => simp [addCoeffs, ih]

theorem foldl_addCoeffs_length {n : Nat} (ps : List (List K)) (acc : List K) (h : acc.length ≤ n) (hp : ∀ c ∈ ps, c.length ≤ n) : (ps.foldl addCoeffs acc).length ≤ n := by
  induction ps generalizing acc with
  | nil => exact h
  | cons p ps ih =>
    exact ih _ (by rw [addCoeffs_length]; exact max_le h (hp p (by simp))) fun c hc => hp c (by simp [hc])

theorem mem_polys {fs : List (Fn K)} {c : List K} : c ∈ polys fs ↔ Fn.poly c ∈ fs := by
  induction fs with
  | nil => simp [polys]
  | cons f fs ih => cases f <;> simp [polys, ih]

theorem sum_tables {a b : K} (hab : ¬ isclose a b) {fs : List (Fn K)} (hfs : ∀ f ∈ fs, Affine a b f) (htab : ∃ t, Fn.tab t ∈ fs) :
    ∃ f, sumFunctions fs = .ok f ∧ Affine a b f ∧ ∀ v, a ≤ v → v ≤ b → Fine a b v → ∃ s, f.eval v = .ok s ∧ IsSum fs v s := by
  have hlin : ∀ t ∈ tabs fs, LinTab a b t := fun t ht => hfs _ (mem_tabs.mp ht)
  obtain ⟨hinc, hmem⟩ := unionAll_spec ((tabs fs).map (·.x)) (by
    intro x hx
    obtain ⟨t, ht, rfl⟩ := List.mem_map.mp hx
    exact (hlin t ht).wf.increasing)
  set u := unionAll ((tabs fs).map (·.x)) with hu
  have hmem' : ∀ v, v ∈ u ↔ ∃ t ∈ tabs fs, v ∈ t.x := by
    intro v
    rw [hmem]
    simp
  obtain ⟨t0, ht0⟩ := htab
  have ht0' := mem_tabs.mpr ht0
  have l0 := hlin t0 ht0'
  have hau : a ∈ u := (hmem' a).mpr ⟨t0, ht0', by rw [← l0.first]; exact List.head_mem _⟩
  have hbu : b ∈ u := (hmem' b).mpr ⟨t0, ht0', by rw [← l0.last]; exact List.getLast_mem _⟩
  have hrange : ∀ v ∈ u, a ≤ v ∧ v ≤ b := by
    intro v hv
    obtain ⟨t, ht, hvt⟩ := (hmem' v).mp hv
    have l := hlin t ht
    refine ⟨?_, ?_⟩
    · rw [← l.first]; exact head_le_of_increasing l.wf.increasing _ v hvt
    · rw [← l.last]; exact le_last_of_increasing l.wf.increasing _ v hvt
  have hfine : ∀ v ∈ u, Fine a b v := by
    intro v hv
    obtain ⟨t, ht, hvt⟩ := (hmem' v).mp hv
    exact (hlin t ht).fine v hvt
  have hne : u ≠ [] := List.ne_nil_of_mem hau
  have hablt : a < b := by
    rcases lt_or_eq_of_le (hrange a hau).2 with h | h
    · exact h
    · exact absurd (h ▸ isclose_self a) hab
  have hhead : u.head hne = a := le_antisymm (head_le_of_increasing hinc hne a hau) (hrange _ (List.head_mem hne)).1
  have hlastu : u.getLast hne = b := le_antisymm (hrange _ (List.getLast_mem hne)).2 (le_last_of_increasing hinc hne b hbu)
  -- an interval of the union
  have hint : ∀ v, a ≤ v → v ≤ b → ∃ i, ∃ hi : i + 1 < u.length, u[i] ≤ v ∧ v ≤ u[i + 1] := by
    intro v h1 h2
    classical
    have hl := List.length_pos_of_ne_nil hne
    have hu0 : u[0] = a := by rw [← hhead, List.head_eq_getElem]
    have hun : u[u.length - 1] = b := by rw [← hlastu, List.getLast_eq_getElem]
    have hl2 : 1 < u.length := by
      by_contra hcon
      have : u.length - 1 = 0 := by omega
      simp only [this] at hun
      exact absurd hablt (by rw [← hu0, hun]; exact lt_irrefl _)
    have hex : ∃ j : Nat, ∃ hj : j + 1 < u.length, v ≤ u[j + 1] := ⟨u.length - 2, by omega, by
      have : u.length - 2 + 1 = u.length - 1 := by omega
      simp only [this]
      rw [hun]; exact h2⟩
    obtain ⟨hj, hvj⟩ := Nat.find_spec hex
    refine ⟨Nat.find hex, hj, ?_, hvj⟩
    rcases Nat.eq_zero_or_pos (Nat.find hex) with h0 | h0
    · simp only [h0, hu0]; exact h1
    · by_contra hcon
      obtain ⟨k, hk⟩ := Nat.exists_eq_succ_of_ne_zero (Nat.pos_iff_ne_zero.mp h0)
      refine Nat.find_min hex (m := k) (by omega) ⟨by omega, ?_⟩
      have := le_of_lt (not_le.mp hcon)
      simp only [hk] at this
      exact this
  have hsum : ∀ i (hi : i + 1 < u.length), ∃ m c, ∀ v, u[i] ≤ v → v ≤ u[i + 1] → Fine a b v → sumAt fs v = .ok (m * v + c) := by
    intro i hi
    refine sum_affine hab (hrange _ (List.getElem_mem _)).1 (List.pairwise_iff_getElem.mp hinc _ _ _ _ (by omega)) (hrange _ (List.getElem_mem _)).2 fs hfs ?_
    intro t ht x hx
    exact gap hinc hi x ((hmem' x).mpr ⟨t, ht, hx⟩)
  -- the values at the points
  have hvals : ∃ ys, u.mapM (sumAt fs) = .ok ys := by
    have : ∀ l : List K, (∀ v ∈ l, ∃ s, sumAt fs v = .ok s) → ∃ ys, l.mapM (sumAt fs) = .ok ys := by
      intro l
      induction l with
      | nil => intro _; exact ⟨[], rfl⟩
      | cons v l ih =>
        intro h
        obtain ⟨s, hs⟩ := h v (by simp)
        obtain ⟨ys, hys⟩ := ih fun w hw => h w (by simp [hw])
        exact ⟨s :: ys, by rw [List.mapM_cons, hs, hys]; rfl⟩
    apply this
    intro v hv
    obtain ⟨h1, h2⟩ := hrange v hv
    obtain ⟨i, hi, h3, h4⟩ := hint v h1 h2
    obtain ⟨m, c, hmc⟩ := hsum i hi
    exact ⟨_, hmc v h3 h4 (hfine v hv)⟩
  obtain ⟨ys, hys⟩ := hvals
  have hF := (mapM_ok_iff _ _).mp hys
  have hylen : ys.length = u.length := hF.length_eq.symm
  have hres : LinTab a b (linlin u ys) := ⟨linlin_wf hinc hylen hne, by simp [linlin], hhead, hlastu, hfine⟩
  refine ⟨.tab (linlin u ys), ?_, hres, ?_⟩
  · unfold sumFunctions
    have h1 : ((tabs fs).any fun t => t.interpolation.any fun l => decide (l ≠ 2)) = false := by
      rw [Bool.eq_false_iff]
      intro hcon
      rw [List.any_eq_true] at hcon
      obtain ⟨t, ht, hc⟩ := hcon
      rw [List.any_eq_true] at hc
      obtain ⟨l, hl, hc⟩ := hc
      simp [(hlin t ht).law l hl] at hc
    have h2 : tabs fs ≠ [] := List.ne_nil_of_mem ht0'
    rw [h1]
    simp only [Bool.false_eq_true, if_false, if_pos h2]
    rw [← hu, hys]
  · intro v h1 h2 hf
    obtain ⟨i, hi, h3, h4⟩ := hint v h1 h2
    obtain ⟨m, c, hmc⟩ := hsum i hi
    have hlt : u[i] < u[i + 1] := List.pairwise_iff_getElem.mp hinc _ _ _ _ (by omega)
    have e0 : sumAt fs u[i] = .ok (ys[i]'(by omega)) := List.forall₂_iff_get.mp hF |>.2 i (by omega) (by omega)
    have e1 : sumAt fs u[i + 1] = .ok (ys[i + 1]'(by omega)) := List.forall₂_iff_get.mp hF |>.2 (i + 1) (by omega) (by omega)
    rw [hmc _ le_rfl (le_of_lt hlt) (hfine _ (List.getElem_mem _))] at e0
    rw [hmc _ (le_of_lt hlt) le_rfl (hfine _ (List.getElem_mem _))] at e1
    simp only [Except.ok.injEq] at e0 e1
    refine ⟨m * v + c, ?_, (sumAt_iff _ _ _).mp (hmc v h3 h4 hf)⟩
    have hev := lin_eval hres hab (i := i) hi (v := v) h3 h4 hf
    show (linlin u ys).eval v = _
    rw [hev]
    congr 1
    show ys[i]'(by omega) + (v - u[i]) / (u[i + 1] - u[i]) * (ys[i + 1]'(by omega) - ys[i]'(by omega)) = _
    rw [← e0, ← e1]
    have hd : u[i + 1] - u[i] ≠ 0 := sub_ne_zero.mpr (ne_of_gt hlt)
    field_simp
    ring

/-- **C101 (partial).** The sum of lin-lin tables over one common range and of polynomials of degree at most one is, at every argument of this range, the sum of their values (as long as
neither the grid points nor the argument are so close to an end of the range that they are taken for it). Missing: other ranges and higher degrees, for which it is false
(`C101_ranges_refuted`, `C101_quadratic_refuted`, `C101_outside_refuted`). -/
theorem C101_sum_partial {a b : K} (hab : ¬ TakenFor a b) {fs : List (Fn K)} (hne : fs ≠ []) (hfs : ∀ f ∈ fs, Affine a b f) :
    ∃ f, sumFunctions fs = .ok f ∧ Affine a b f ∧ ∀ v, a ≤ v → v ≤ b → Fine a b v → ∃ s, f.eval v = .ok s ∧ IsSum fs v s := by
  by_cases h : tabs fs = []
  · obtain ⟨h1, h2, h3⟩ := sum_polys h hne fun c hc => (hfs _ (mem_polys.mp hc)).1
    exact ⟨_, h1, ⟨h2, foldl_addCoeffs_length _ _ (by simp) fun c hc => (hfs _ (mem_polys.mp hc)).2⟩, fun v _ _ _ => h3 v⟩
  · obtain ⟨t, ht⟩ := List.exists_mem_of_ne_nil _ h
    exact sum_tables hab hfs ⟨t, mem_tabs.mp ht⟩

/-- **C101.** A table that is not lin-lin is refused. -/
theorem C101_not_linear {fs : List (Fn K)} {t : Tab1D K} (ht : Fn.tab t ∈ fs) {l : Nat} (hl : l ∈ t.interpolation) (h2 : l ≠ 2) : sumFunctions fs = .error .valueError := by
  unfold sumFunctions
  rw [if_pos]
  rw [List.any_eq_true]
  refine ⟨t, mem_tabs.mpr ht, ?_⟩
  rw [List.any_eq_true]
  exact ⟨l, hl, by simpa using h2⟩

/-! ### Examples and counterexamples -/

section Examples

local instance : ExpLog ℚ := ⟨id, id⟩

theorem ex_linTab {t : Tab1D ℚ} {a b : ℚ} (hx : t.x.Pairwise (· < ·)) (hne : t.x ≠ []) (hy : t.y.length = t.x.length) (ht : t = linlin t.x t.y) (h0 : t.x.head? = some a)
    (h1 : t.x.getLast? = some b) (hf : ∀ x ∈ t.x, Fine a b x) : LinTab a b t where
  wf := by rw [ht]; exact linlin_wf hx hy hne
  law := by rw [ht]; simp [linlin]
  first := by rw [List.head?_eq_some_head hne] at h0; simpa using h0
  last := by rw [List.getLast?_eq_some_getLast hne] at h1; simpa using h1
  fine := hf

/-- A non-trivial case of `C101_sum_partial`: two tables with different grids from 1 to 4 and a line. -/
example : ¬ TakenFor (1 : ℚ) 4 ∧ ∀ f ∈ [Fn.tab (linlin [1, 2, 4] [1, 5, 3]), .poly [7, -1], .tab (linlin [(1 : ℚ), 3, 4] [0, 2, 9])], Affine 1 4 f := by
  refine ⟨by decide +kernel, ?_⟩
  intro f hf
  simp only [List.mem_cons, List.not_mem_nil, or_false] at hf
  rcases hf with rfl | rfl | rfl
  · exact ex_linTab (by decide +kernel) (by decide) rfl rfl rfl rfl (by unfold Fine; decide +kernel)
  · exact ⟨by simp, by simp⟩
  · exact ex_linTab (by decide +kernel) (by decide) rfl rfl rfl rfl (by unfold Fine; decide +kernel)

/-- The sum of this example. -/
example : sumFunctions [Fn.tab (linlin [1, 2, 4] [1, 5, 3]), .poly [7, -1], .tab (linlin [(1 : ℚ), 3, 4] [0, 2, 9])] = .ok (.tab (linlin [1, 2, 3, 4] [7, 11, 10, 15])) := by
  decide +kernel

/-- Tables with different ranges: the sum at 3 of two tables, one from 1 to 2 and the other from 2 to 4, is interpolated between 2 and 4, but the first table is 0 at 3. -/
theorem C101_ranges_refuted : ∃ (fs : List (Fn ℚ)) (f : Fn ℚ) (v s : ℚ), sumFunctions fs = .ok f ∧ IsSum fs v s ∧ f.eval v ≠ .ok s :=
  ⟨[.tab (linlin [1, 2] [1, 1]), .tab (linlin [2, 4] [1, 1])], .tab (linlin [1, 2, 4] [1, 2, 1]), 3, 1, by decide +kernel,
    (sumAt_iff _ _ _).mp (by decide +kernel), by decide +kernel⟩

/-- A polynomial of degree two with a table over the whole range. -/
theorem C101_quadratic_refuted : ∃ (fs : List (Fn ℚ)) (f : Fn ℚ) (v s : ℚ), (∀ t, .tab t ∈ fs → LinTab 1 3 t) ∧ 1 ≤ v ∧ v ≤ 3 ∧ sumFunctions fs = .ok f ∧ IsSum fs v s ∧ f.eval v ≠ .ok s :=
  ⟨[.tab (linlin [1, 3] [0, 0]), .poly [0, 0, 1]], .tab (linlin [1, 3] [1, 9]), 2, 4, by
      intro t ht
      simp only [List.mem_cons, Fn.tab.injEq, List.not_mem_nil, or_false, reduceCtorEq] at ht
      subst ht
      exact ex_linTab (by decide +kernel) (by decide) rfl rfl rfl rfl (by unfold Fine; decide +kernel),
    by decide +kernel, by decide +kernel, by decide +kernel, (sumAt_iff _ _ _).mp (by decide +kernel), by decide +kernel⟩

/-- Outside the range of the tables the polynomials are lost. -/
theorem C101_outside_refuted : ∃ (fs : List (Fn ℚ)) (f : Fn ℚ) (v s : ℚ), (∀ f ∈ fs, Affine 1 3 f) ∧ sumFunctions fs = .ok f ∧ IsSum fs v s ∧ f.eval v ≠ .ok s :=
  ⟨[.tab (linlin [1, 3] [0, 0]), .poly [7]], .tab (linlin [1, 3] [7, 7]), 5, 7, by
      intro f hf
      simp only [List.mem_cons, List.not_mem_nil, or_false] at hf
      rcases hf with rfl | rfl
      · exact ex_linTab (by decide +kernel) (by decide) rfl rfl rfl rfl (by unfold Fine; decide +kernel)
      · exact ⟨by simp, by simp⟩,
    by decide +kernel, (sumAt_iff _ _ _).mp (by decide +kernel), by decide +kernel⟩

/-- Non-trivial case of `C101_polynomials`. -/
example : sumFunctions [Fn.poly [(1 : ℚ), 2, 3], .poly [4, 5]] = .ok (.poly [5, 7, 3]) := by decide +kernel

/-- Non-trivial case of `C101_not_linear`: a histogram. -/
example : sumFunctions [Fn.poly [(1 : ℚ)], .tab ⟨[1, 2], [3, 4], [2], [1]⟩] = .error .valueError := C101_not_linear (t := ⟨[1, 2], [3, 4], [2], [1]⟩) (l := 1) (by simp) (by simp) (by decide)

end Examples

end ASAPy.Func
