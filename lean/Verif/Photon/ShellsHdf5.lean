import Verif.Photon.LemmasHdf5
import Verif.Photon.Lemmas
import Verif.Tab1D.Props
import Verif.Tab1D.IntegralProps

/-!
# The groups of the shells, and exports that succeed
-/

namespace ASAPy.Photon
open ASAPy.Endf (Line)
open ASAPy.Hdf5 (Grp Node Val Attrs getAttr get?_app)

theorem subshells_get {d : Nat} (h1 : 1 ≤ d) : subshells[d - 1]? = shellName d := by
  unfold shellName
  rw [if_neg (by omega), subshells_eq]

theorem subshell_of {mt : Int} (h1 : 534 ≤ mt) (h2 : mt ≤ 572) : ∃ d : Nat, 1 ≤ d ∧ d ≤ 39 ∧ mt = 533 + (d : Int) ∧ subshells[(mt - 534).toNat]? = shellName d := by
  refine ⟨(mt - 533).toNat, by omega, by omega, by omega, ?_⟩
  rw [← subshells_get (by omega)]
  congr 1
  omega

/-- The group of one shell. -/
def ShellGroup (p : PData) (grid : List ℝ) (r : Int × PRx ℝ) (item : Line × Node ℝ) : Prop :=
  ∃ (d : Nat) (g0 g : Grp ℝ), 1 ≤ d ∧ d ≤ 39 ∧ r.1 = 533 + (d : Int) ∧ shellName d = some item.1 ∧ addRelax item.1 Grp.empty p.relax = .ok g0 ∧ addShellXs r.2.xs grid g0 = .ok g ∧ item.2 = g.node

theorem addShell_ok {p : PData} {grid : List ℝ} (rxs : List (Int × PRx ℝ)) : ∀ {st st' : Grp ℝ × List Line}, rxs.foldlM (addShell p grid) st = .ok st' → (st.1.items.map Prod.fst).Nodup →
    ∃ items, List.Forall₂ (ShellGroup p grid) (rxs.filter fun r => decide (534 ≤ r.1 ∧ r.1 ≤ 572)) items ∧ st'.1 = ⟨st.1.attrs, st.1.items ++ items⟩ ∧ st'.2 = st.2 ++ items.map Prod.fst ∧
      (st'.1.items.map Prod.fst).Nodup := by
  induction rxs with
  | nil =>
    intro st st' h hn
    cases h
    exact ⟨[], by simp, by simp, by simp, hn⟩
  | cons r rxs ih =>
    intro st st' h hn
    rw [List.foldlM_cons] at h
    obtain ⟨s1, h1, h2⟩ := bind_ok h
    unfold addShell at h1
    by_cases hr : r.1 ≥ 534 ∧ r.1 ≤ 572
    · rw [if_pos hr] at h1
      obtain ⟨d, hd1, hd2, hmt, hd⟩ := subshell_of hr.1 hr.2
      rw [hd] at h1
      cases hname : shellName d with
      | none => rw [hname] at h1; cases h1
      | some s =>
        rw [hname] at h1
        obtain ⟨g0, ha, h1⟩ := bind_ok h1
        obtain ⟨g, hb, h1⟩ := bind_ok h1
        obtain ⟨k, hc, h1⟩ := bind_ok h1
        cases h1
        obtain ⟨e, hnone⟩ := add_ok hc
        subst e
        obtain ⟨items, i1, i2, i3, i4⟩ := ih h2 (by
          simp only [List.map_append, List.map_cons, List.map_nil]
          refine List.nodup_append.mpr ⟨hn, by simp, ?_⟩
          intro a ham b hb
          simp only [List.mem_singleton] at hb
          subst hb
          rintro rfl
          exact Dict.get?_eq_none.mp hnone ham)
        refine ⟨(s, g.node) :: items, ?_, ?_, ?_, i4⟩
        · rw [List.filter_cons, if_pos (by simpa using hr)]
          exact List.Forall₂.cons ⟨d, g0, g, hd1, hd2, hmt, hname, ha, hb, rfl⟩ i1
        · rw [i2]; simp
        · rw [i3]; simp
    · rw [if_neg hr] at h1
      cases h1
      obtain ⟨items, i1, i2, i3, i4⟩ := ih h2 hn
      refine ⟨items, ?_, i2, i3, i4⟩
      rw [List.filter_cons, if_neg (by simpa using hr)]
      exact i1

/-- What relaxation gives to a shell. -/
theorem addRelax_of {s : Shell ℝ} {ss : List (Shell ℝ)} (hm : s ∈ ss) (hn : (ss.map Shell.d).Nodup) (hk : ∀ s ∈ ss, s.Known) {name : Line} (hname : shellName s.d = some name) :
    addRelax name Grp.empty (some (relaxOf ss)) = .ok ⟨[(c!"binding_energy", .num s.energy), (c!"num_electrons", .num s.electrons)],
      if s.jumps = [] then [] else [(c!"transitions", .data (.rows (s.jumps.map fun t => [(t.j : ℝ), t.k, t.energy, t.probability])) [])]⟩ := by
  have hnn := names_nodup_of hk hn
  have e1 : shellValue (relaxOf ss).binding name = .ok s.energy := by
    unfold shellValue
    rw [AceData.get?_of_mem (k := some name) (a := s.energy) (by rw [keys_binding]; exact hnn) (by rw [← hname]; exact List.mem_map.mpr ⟨s, hm, rfl⟩)]
  have e2 : shellValue (relaxOf ss).electrons name = .ok s.electrons := by
    unfold shellValue
    rw [AceData.get?_of_mem (k := some name) (a := s.electrons) (by rw [keys_electrons]; exact hnn) (by rw [← hname]; exact List.mem_map.mpr ⟨s, hm, rfl⟩)]
  unfold addRelax
  simp only [e1, e2, Hdf5.ok_bind]
  by_cases hj : s.jumps = []
  · have e3 : Dict.get? (relaxOf ss).transitions (some name) = none := by
      rw [Dict.get?_eq_none]
      intro hc
      unfold Dict.keys at hc
      simp only [relaxOf, List.map_map, List.mem_map, List.mem_filter, Function.comp] at hc
      obtain ⟨s', ⟨hs', hjs⟩, he⟩ := hc
      have hd := name_inj (hk s' hs').1 (hk s hm).1 (he.trans hname.symm)
      have : s' = s := List.inj_on_of_nodup_map hn hs' hm hd
      subst this
      simp [hj] at hjs
    rw [e3, if_pos hj]
    rfl
  · have e3 : Dict.get? (relaxOf ss).transitions (some name) = some (s.jumps.map fun t => ⟨shellName t.j, shellName t.k, t.energy, t.probability⟩) := by
      apply AceData.get?_of_mem
      · have hsub : ((relaxOf ss).transitions.map Prod.fst).Sublist (ss.map fun s => shellName s.d) := by
          simp only [relaxOf, List.map_map]
          exact (List.filter_sublist).map _
        exact hnn.sublist hsub
      · rw [← hname]
        simp only [relaxOf, List.mem_map, List.mem_filter]
        exact ⟨s, ⟨hm, by simpa using hj⟩, rfl⟩
    rw [e3, if_neg hj]
    have code : ∀ d : Nat, d ≤ 39 → shellCode (shellName d) = .ok (d : ℝ) := by
      intro d hd
      by_cases h0 : d = 0
      · subst h0; simp [shellName, shellCode]
      · obtain ⟨n, hn⟩ := Option.isSome_iff_exists.mp (name_some d (by omega) hd)
        rw [hn]
        unfold shellCode
        have hg : subshells[d - 1]? = some n := by rw [subshells_get (by omega), hn]
        have hi : subshells.findIdx? (· = n) = some (d - 1) := by
          rw [List.findIdx?_eq_some_iff_getElem]
          obtain ⟨hlt, hv⟩ := List.getElem?_eq_some_iff.mp hg
          refine ⟨hlt, by simpa using hv, ?_⟩
          intro j hji
          simp only [decide_eq_true_eq]
          intro hc
          rw [← hv] at hc
          have := (List.Nodup.getElem_inj_iff (by rw [subshells_eq]; exact names_nodup)).mp hc
          omega
        simp only [hi]
        rw [Nat.cast_sub (by omega)]
        simp
    have hmap : (s.jumps.map fun t => (⟨shellName t.j, shellName t.k, t.energy, t.probability⟩ : Trans ℝ)).mapM transRow =
        .ok (s.jumps.map fun t => [(t.j : ℝ), t.k, t.energy, t.probability]) := by
      rw [Func.mapM_ok_iff, List.forall₂_map_left_iff, List.forall₂_map_right_iff, List.forall₂_same]
      intro t ht
      have := (hk s hm).2 t ht
      unfold transRow
      simp only [code _ this.1, code _ this.2, Hdf5.ok_bind]
      rfl
    simp only [hmap, Hdf5.ok_bind]
    rfl

theorem addRelax_missing {ss : List (Shell ℝ)} {d : Nat} (hd : d ≤ 39) (hk : ∀ s ∈ ss, s.Known) {name : Line} (hname : shellName d = some name) (hno : ∀ s ∈ ss, s.d ≠ d) (g : Grp ℝ) :
    addRelax name g (some (relaxOf ss)) = .error .keyError := by
  have : Dict.get? (relaxOf ss).binding (some name) = none := by
    rw [Dict.get?_eq_none]
    intro hc
    unfold Dict.keys at hc
    rw [keys_binding] at hc
    obtain ⟨s, hs, he⟩ := List.mem_map.mp hc
    exact hno s hs (name_inj (hk s hs).1 hd (he.trans hname.symm))
  unfold addRelax shellValue
  simp only [this]
  rfl

/-- The threshold in the grid. -/
theorem threshold_index {grid : List ℝ} (hg : grid.Pairwise (· < ·)) {v : ℝ} (hv : v ∈ grid) : grid[Np.searchsortedRight grid v - 1]? = some v ∧ Np.searchsortedRight grid v - 1 < grid.length := by
  obtain ⟨i, hi, rfl⟩ := List.getElem_of_mem hv
  have hpw := List.pairwise_iff_getElem.mp hg
  have h1 : i < Np.searchsortedRight grid grid[i] := by
    by_contra hc
    push Not at hc
    have hlt : Np.searchsortedRight grid grid[i] < grid.length := by omega
    have := Np.lt_of_searchsortedRight grid grid[i] hlt
    rcases Nat.lt_or_ge (Np.searchsortedRight grid grid[i]) i with h | h
    · exact absurd (hpw _ _ hlt hi h) (not_lt.mpr this.le)
    · have he : Np.searchsortedRight grid grid[i] = i := by omega
      simp only [he] at this
      exact absurd this (lt_irrefl _)
  have h2 : Np.searchsortedRight grid grid[i] ≤ i + 1 := by
    by_contra hc
    push Not at hc
    have hle := Np.searchsortedRight_le grid grid[i]
    have := Np.le_of_lt_searchsortedRight grid grid[i] (i + 1) (by omega)
    exact absurd (hpw i (i + 1) hi (by omega) (by omega)) (not_lt.mpr this)
  have he : Np.searchsortedRight grid grid[i] - 1 = i := by omega
  rw [he]
  exact ⟨List.getElem?_eq_getElem hi, hi⟩

theorem addShellXs_ok {t : Option (Tab1D ℝ)} {grid : List ℝ} {g g' : Grp ℝ} (h : addShellXs t grid g = .ok g') (hg : grid.Pairwise (· < ·)) (hin : ∀ u, t = some u → ∀ v ∈ u.x, v ∈ grid) :
    ∃ (u : Tab1D ℝ) (idx : Nat) (ys : List ℝ), t = some u ∧ u.x ≠ [] ∧ grid[idx]? = u.x.head? ∧ ValuesAt u (grid.drop idx) ys ∧
      g' = ⟨g.attrs, g.items ++ [(c!"xs", .data (.vec ys) [(c!"threshold_idx", .int idx)])]⟩ := by
  cases t with
  | none => cases h
  | some u =>
    unfold addShellXs at h
    simp only at h
    cases hx : u.x with
    | nil => rw [hx] at h; cases h
    | cons a l =>
      rw [hx] at h
      obtain ⟨ys, h1, h2⟩ := bind_ok h
      split at h2
      · refine ⟨u, _, ys, rfl, by simp [hx], ?_, evals_iff.mp h1, (add_ok h2).1⟩
        rw [hx, List.head?_cons]
        exact (threshold_index hg (hin u rfl a (by simp [hx]))).1
      · cases h2

theorem evals_total {t : Tab1D ℝ} (h : Tab1D.WF t) (es : List ℝ) : ∃ ys, t.evals es = .ok ys := by
  choose f hf using fun e => Tab1D.C16_total h e
  refine ⟨es.map f, ?_⟩
  rw [Tab1D.evals, Func.mapM_ok_iff, List.forall₂_map_right_iff, List.forall₂_same]
  exact fun e _ => hf e

theorem evals_length {t : Tab1D ℝ} {es ys : List ℝ} (h : t.evals es = .ok ys) : ys.length = es.length := ((Func.mapM_ok_iff _ _).mp h).length_eq.symm

theorem addShellXs_total {u : Tab1D ℝ} (hu : Tab1D.WF u) {grid : List ℝ} (hg : grid.Pairwise (· < ·)) (hin : ∀ v ∈ u.x, v ∈ grid) {g : Grp ℝ} (hno : Dict.get? g.items c!"xs" = none) :
    ∃ g', addShellXs (some u) grid g = .ok g' := by
  unfold addShellXs
  cases hx : u.x with
  | nil => exact absurd hx hu.nonempty
  | cons a l =>
    have := (threshold_index hg (hin a (by simp [hx]))).2
    obtain ⟨ys, hy⟩ := evals_total hu (grid.drop (Np.searchsortedRight grid a - 1))
    simp only [hx, hy, Hdf5.ok_bind]
    rw [if_pos (by rw [evals_length hy, List.length_drop]; omega)]
    unfold Grp.add
    rw [hno]
    exact ⟨_, rfl⟩

end ASAPy.Photon
