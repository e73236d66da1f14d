import Verif.Photon.TotalHdf5

/-!
# Properties C179-C182: shells, cross sections between the energies, form factors, profiles and the data of electrons in the HDF5 form
-/

namespace ASAPy.Photon
open ASAPy.Endf (Line)
open ASAPy.Hdf5 (Grp Node Val Attrs getAttr get?_app)

/-- What an export writes is one group; the theorems below speak of it. -/
theorem grid_of {f f' g : Grp ℝ} {p : PData} (h : exportHdf5 f p = .ok f') (hg : ElementGroup f' p.z g) : Nonempty (Parts p g) := by
  obtain ⟨g', hg', hq⟩ := written h
  rw [element_unique hg hg']
  exact hq

theorem forall₂_mem {α β : Type} {R : α → β → Prop} {l : List α} {m : List β} (h : List.Forall₂ R l m) {a : α} (ha : a ∈ l) : ∃ b ∈ m, R a b := by
  induction h with
  | nil => simp at ha
  | cons hab _ ih =>
    rcases List.mem_cons.mp ha with rfl | ha
    · exact ⟨_, by simp, hab⟩
    · obtain ⟨b, hb, hr⟩ := ih ha
      exact ⟨b, by simp [hb], hr⟩

/-- C179: the shells for which there is a cross section are listed in the order of the reactions, and each of them has a group under its name with the cross section from its first energy on,
with the place of this energy among the common ones, and with the data of the shell from the relaxation: energy, number of electrons and, if there are any, the transitions with the numbers
of the shells. -/
theorem C179_shells {f f' g : Grp ℝ} {p : PData} (h : exportHdf5 f p = .ok f') (hg : ElementGroup f' p.z g) {grid : List ℝ} (he : g.dset c!"energy" = .ok (.vec grid, [])) :
    ∃ sub, g.group c!"subshells" = .ok sub ∧
      (∃ names, getAttr sub.attrs c!"designators" = .ok (.strs names) ∧
        List.Forall₂ (fun (r : Int × PRx ℝ) name => ∃ d : Nat, 1 ≤ d ∧ r.1 = 533 + (d : Int) ∧ shellName d = some name) (p.reactions.filter fun r => decide (534 ≤ r.1 ∧ r.1 ≤ 572)) names) ∧
      ∀ (d : Nat) (r : PRx ℝ), 1 ≤ d → d ≤ 39 → (533 + (d : Int), r) ∈ p.reactions →
        ∃ name shell t idx ys, shellName d = some name ∧ sub.group name = .ok shell ∧ r.xs = some t ∧ shell.dset c!"xs" = .ok (.vec ys, [(c!"threshold_idx", .int (idx : Nat))]) ∧
          t.x ≠ [] ∧ grid[idx]? = t.x.head? ∧ ValuesAt t (grid.drop idx) ys ∧
          (p.relax = none → shell.attrs = [] ∧ shell.has c!"transitions" = false) ∧
          ∀ ss, p.relax = some (relaxOf ss) → (ss.map Shell.d).Nodup → (∀ s ∈ ss, s.Known) →
            ∃ s ∈ ss, s.d = d ∧ getAttr shell.attrs c!"binding_energy" = .ok (.num s.energy) ∧ getAttr shell.attrs c!"num_electrons" = .ok (.num s.electrons) ∧
              (s.jumps = [] → shell.has c!"transitions" = false) ∧
              (s.jumps ≠ [] → shell.dset c!"transitions" = .ok (.rows (s.jumps.map fun t => [(t.j : ℝ), t.k, t.energy, t.probability]), [])) := by
  obtain ⟨q⟩ := grid_of h hg
  have hgr : q.grid = grid := by
    rw [dset_of (get_energy q)] at he
    cases he
    rfl
  obtain ⟨items, h1, h2, h3, h4⟩ := addShell_ok p.reactions q.hst (by simp [Grp.empty])
  rw [hgr] at h1
  simp only [Grp.empty, List.nil_append] at h2 h3
  refine ⟨_, group_of (get_subshells q), ⟨items.map Prod.fst, ?_, ?_⟩, ?_⟩
  · rw [h2, h3]
    simp [getAttr, Grp.attr, Dict.set, Dict.get?]
  · rw [List.forall₂_map_right_iff]
    exact h1.imp fun r item ⟨d, _, _, hd, _, hmt, hn, _⟩ => ⟨d, hd, hmt, hn⟩
  · intro d r hd1 hd2 hr
    obtain ⟨item, hmem, d', g0, g1, hd1', hd2', hmt, hname, ha, hb, hnode⟩ := forall₂_mem h1 (a := (533 + (d : Int), r)) (by
      rw [List.mem_filter]
      exact ⟨hr, by simp; omega⟩)
    have hdd : d' = d := by simp only at hmt; omega
    subst hdd
    obtain ⟨t, idx, ys, ht, hx, hidx, hv, hg1⟩ := addShellXs_ok hb (hgr ▸ q.common.1) (fun u hu v hv => hgr ▸ (q.common.2 v).mpr ⟨_, hr, u, hu, hv⟩)
    have hg0 : p.relax = none → g0 = Grp.empty := by
      intro hn
      rw [hn] at ha
      exact (Except.ok.inj ha).symm
    have hrel : ∀ ss, p.relax = some (relaxOf ss) → (ss.map Shell.d).Nodup → (∀ s ∈ ss, s.Known) → ∃ s ∈ ss, s.d = d' ∧
        g0 = ⟨[(c!"binding_energy", .num s.energy), (c!"num_electrons", .num s.electrons)],
          if s.jumps = [] then [] else [(c!"transitions", .data (.rows (s.jumps.map fun t => [(t.j : ℝ), t.k, t.energy, t.probability])) [])]⟩ := by
      intro ss hss hnd hk
      rw [hss] at ha
      by_cases hex : ∃ s ∈ ss, s.d = d'
      · obtain ⟨s, hs, rfl⟩ := hex
        rw [addRelax_of hs hnd hk hname] at ha
        exact ⟨s, hs, rfl, (Except.ok.inj ha).symm⟩
      · push Not at hex
        rw [addRelax_missing hd2 hk hname hex] at ha
        cases ha
    have hno : Dict.get? g0.items c!"xs" = none := by
      cases hb' : t.x with
      | nil => exact absurd hb' hx
      | cons a l =>
        have ht' : r.xs = some t := ht
        unfold addShellXs at hb
        simp only [ht', hb'] at hb
        obtain ⟨ys', _, h5⟩ := bind_ok hb
        split at h5
        · exact (add_ok h5).2
        · cases h5
    refine ⟨item.1, g1, t, idx, ys, hname, group_of ?_, ht, dset_of ?_, hx, hidx, hv, ?_, ?_⟩
    · have : Dict.get? q.st.1.items item.1 = some item.2 := by
        apply AceData.get?_of_mem h4
        rw [h2]
        exact hmem
      rw [← hnode]
      exact this
    · rw [hg1]
      simp only
      rw [get?_app, hno]
      rfl
    · intro hn
      rw [hg1, hg0 hn]
      exact ⟨rfl, rfl⟩
    · intro ss hss hnd hk
      obtain ⟨s, hs, hsd, e⟩ := hrel ss hss hnd hk
      refine ⟨s, hs, hsd, ?_, ?_, ?_, ?_⟩
      · rw [hg1, e]; rfl
      · rw [hg1, e]; rfl
      · intro hj
        rw [hg1, e]
        simp only [if_pos hj]
        rfl
      · intro hj
        apply dset_of
        rw [hg1, e]
        simp only [if_neg hj]
        rfl

/-- C179: a shell with a cross section that the relaxation does not know is refused. -/
theorem C179_unknown {f : Grp ℝ} {p : PData} {ss : List (Shell ℝ)} (hr : p.relax = some (relaxOf ss)) (hk : ∀ s ∈ ss, s.Known) {d : Nat} (h1 : 1 ≤ d) (h2 : d ≤ 39)
    {r : PRx ℝ} (hm : (533 + (d : Int), r) ∈ p.reactions) (hno : ∀ s ∈ ss, s.d ≠ d) : ∀ f', exportHdf5 f p ≠ .ok f' := by
  intro f' hf
  obtain ⟨g, _, ⟨q⟩⟩ := written hf
  obtain ⟨items, e1, _⟩ := addShell_ok p.reactions q.hst (by simp [Grp.empty])
  obtain ⟨item, _, d', g0, g1, _, _, hmt, hname, ha, _⟩ := forall₂_mem e1 (a := (533 + (d : Int), r)) (by
    rw [List.mem_filter]
    exact ⟨hm, by simp; omega⟩)
  have : d' = d := by simp only at hmt; omega
  subst this
  rw [hr, addRelax_missing h2 hk hname hno] at ha
  cases ha

/-- C180 (partial): between two neighbouring common energies within its range a lin-lin cross section is the straight line between its two written values. Missing: the other laws, tables with two
values at one energy, and energies that the table takes for its end points; see the refutations. -/
theorem C180_between_partial {t : Tab1D ℝ} {a b : ℝ} (ht : Func.LinTab a b t) (hab : ¬ Tab1D.TakenFor a b) {p : PData} {grid : List ℝ} (hc : CommonEnergies p grid)
    {r : Int × PRx ℝ} (hr : r ∈ p.reactions) (hx : r.2.xs = some t) {ys : List ℝ} (hv : ValuesAt t grid ys) (hfine : ∀ e ∈ grid, Func.Fine a b e)
    {i : Nat} {e0 e1 y0 y1 : ℝ} (h0 : grid[i]? = some e0) (h1 : grid[i + 1]? = some e1) (h2 : ys[i]? = some y0) (h3 : ys[i + 1]? = some y1) (ha : a ≤ e0) (hb : e1 ≤ b)
    {e : ℝ} (he0 : e0 ≤ e) (he1 : e ≤ e1) (hf : Func.Fine a b e) : t.eval e = .ok (y0 + (e - e0) / (e1 - e0) * (y1 - y0)) := by
  obtain ⟨i0, g0⟩ := List.getElem?_eq_some_iff.mp h0
  obtain ⟨i1, g1⟩ := List.getElem?_eq_some_iff.mp h1
  have hlt : e0 < e1 := by
    rw [← g0, ← g1]
    exact List.pairwise_iff_getElem.mp hc.1 _ _ _ _ (by omega)
  have hno : ∀ x ∈ t.x, x ≤ e0 ∨ e1 ≤ x := by
    intro x hxm
    have := Func.gap hc.1 i1 x ((hc.2 x).mpr ⟨r, hr, t, hx, hxm⟩)
    rw [g0, g1] at this
    exact this
  obtain ⟨m, c, hmc⟩ := Func.tab_affine ht hab ha hlt hb hno
  have v0 : t.eval e0 = .ok y0 := by
    obtain ⟨j0, k0⟩ := List.getElem?_eq_some_iff.mp h2
    have := List.Forall₂.get hv i0 j0
    simpa [g0, k0] using this
  have v1 : t.eval e1 = .ok y1 := by
    obtain ⟨j1, k1⟩ := List.getElem?_eq_some_iff.mp h3
    have := List.Forall₂.get hv i1 j1
    simpa [g1, k1] using this
  rw [hmc e0 le_rfl hlt.le (hfine e0 (by rw [← g0]; exact List.getElem_mem _))] at v0
  rw [hmc e1 hlt.le le_rfl (hfine e1 (by rw [← g1]; exact List.getElem_mem _))] at v1
  have u0 := Except.ok.inj v0
  have u1 := Except.ok.inj v1
  rw [hmc e he0 he1 hf]
  congr 1
  have hd : e1 - e0 ≠ 0 := by linarith
  rw [← u0, ← u1]
  field_simp
  ring

/-- A cross section with an edge: two values at the energy 2. -/
def edge : Tab1D ℝ := ⟨[1, 2, 2, 3], [10, 5, 20, 10], [4], [2]⟩

theorem edge_below : edge.eval (3 / 2) = .ok (15 / 2) := by
  norm_num [edge, Tab1D.eval, Tab1D.regions, Tab1D.region, Tab1D.interp, Tab1D.isclose, Np.searchsortedRight, pyGet, bind, Except.bind, pure, Except.pure]

theorem edge_values : ValuesAt edge [1, 2, 3] [10, 20, 10] := by
  unfold ValuesAt
  refine List.Forall₂.cons ?_ (List.Forall₂.cons ?_ (List.Forall₂.cons ?_ List.Forall₂.nil)) <;>
  norm_num [edge, Tab1D.eval, Tab1D.regions, Tab1D.region, Tab1D.interp, Tab1D.isclose, Np.searchsortedRight, pyGet, bind, Except.bind, pure, Except.pure]
  show (20 : ℝ) + (2 - 2) / (3 - 2) * (10 - 20) = 20
  norm_num

/-- C180 is false of a cross section with an edge, i.e. two values at one energy: the energy is written once, with the value above the edge, and below the edge the line between the written values
is not the cross section (7.5 at the energy 1.5, the line gives 15). -/
theorem C180_edge_refuted : ∃ (p : PData) (grid ys : List ℝ), (522, ({ mt := 522, xs := some edge } : PRx ℝ)) ∈ p.reactions ∧ CommonEnergies p grid ∧ ValuesAt edge grid ys ∧
    grid[0]? = some 1 ∧ grid[1]? = some 2 ∧ ys[0]? = some 10 ∧ ys[1]? = some 20 ∧ edge.eval (3 / 2) ≠ .ok (10 + (3 / 2 - 1) / (2 - 1) * (20 - 10)) := by
  refine ⟨{ z := 1, reactions := [(522, { mt := 522, xs := some edge })] }, [1, 2, 3], [10, 20, 10], by simp, ⟨by simp; norm_num, ?_⟩, edge_values, rfl, rfl, rfl, rfl, ?_⟩
  · intro v
    simp [edge]
  · rw [edge_below]
    intro h
    have := Except.ok.inj h
    norm_num at this

theorem sum_range_take (g : Nat → ℝ) (n j : Nat) (h : j ≤ n) : (((List.range n).map g).take j).sum = ∑ i ∈ Finset.range j, g i := by
  rw [← List.map_take, List.take_range, Nat.min_eq_left h]
  exact (Finset.sum_range g).trans (by rw [← List.sum_ofFn]; congr 1; exact List.ext_getElem (by simp) (by simp)) |>.symm

theorem trapezoid {X0 X1 a b z : ℝ} (h : X1 - X0 ≠ 0) :
    (a * (a / z ^ 2) - (b * (b / z ^ 2) - a * (a / z ^ 2)) / (X1 - X0) * X0) * (X1 - X0) + (b * (b / z ^ 2) - a * (a / z ^ 2)) / (X1 - X0) * (X1 ^ 2 - X0 ^ 2) / 2 =
      (X1 - X0) * ((a / z) ^ 2 + (b / z) ^ 2) / 2 := by
  have hm : (b * (b / z ^ 2) - a * (a / z ^ 2)) / (X1 - X0) * (X1 - X0) = b * (b / z ^ 2) - a * (a / z ^ 2) := div_mul_cancel₀ _ h
  generalize (b * (b / z ^ 2) - a * (a / z ^ 2)) / (X1 - X0) = m at hm ⊢
  rw [div_pow, div_pow]
  rw [show b * (b / z ^ 2) = b ^ 2 / z ^ 2 by ring, show a * (a / z ^ 2) = a ^ 2 / z ^ 2 by ring] at *
  linear_combination ((X1 - X0) / 2) * hm

/-- C181 (partial): of a lin-lin form factor the export writes, at the squares of the momenta, the trapezoidal sums of the squares of its values over `Z`. Missing: the other laws; see the
refutation. -/
theorem C181_form_factor_partial {f f' g : Grp ℝ} {p : PData} (h : exportHdf5 f p = .ok f') (hg : ElementGroup f' p.z g) {r : PRx ℝ} (hr : Dict.get? p.reactions 502 = some r)
    {ff : Tab1D ℝ} (hff : r.factor = some ff) (hw : Tab1D.WF ff) (h0 : ∀ v ∈ ff.x, 0 ≤ v) (hl : ∀ l ∈ ff.interpolation, l = 2) :
    ∃ c s, g.group c!"coherent" = .ok c ∧
      c.dset c!"integrated_scattering_factor" = .ok (.nans (ff.x.map fun v => v ^ 2) s, [(c!"type", .str c!"Tabulated1D"), (c!"breakpoints", .ints [(ff.x.length : Int)]), (c!"interpolation", .ints [2])]) ∧
      s.length = ff.x.length ∧
      ∀ j, j < ff.x.length → s[j]? = some (some (∑ i ∈ Finset.range j, (ff.x[i + 1]?.getD 0 ^ 2 - ff.x[i]?.getD 0 ^ 2) * ((ff.y[i]?.getD 0 / p.z) ^ 2 + (ff.y[i + 1]?.getD 0 / p.z) ^ 2) / 2)) := by
  obtain ⟨q⟩ := grid_of h hg
  obtain ⟨r', c, l1, l2, l3, hr', ⟨t, ys, _, _, hc⟩, hf, _, _, e⟩ := q.hcoh
  rw [hr] at hr'
  cases hr'
  rw [hff] at hf
  obtain ⟨s, hs, hlen, rfl⟩ := hf
  have hsq : (squared p.z ff).x = ff.x.map fun v => v ^ 2 := by
    simp only [squared]
    exact List.map_congr_left fun v _ => (sq v).symm
  refine ⟨_, s, group_of (by rw [get_coherent q, e]; rfl), dset_of ?_, hlen, ?_⟩
  · simp only [hc, List.cons_append, List.nil_append, Dict.get?, hsq]
    rfl
  · let w : Nat → ℝ := fun i => (ff.x[i + 1]?.getD 0 ^ 2 - ff.x[i]?.getD 0 ^ 2) * ((ff.y[i]?.getD 0 / p.z) ^ 2 + (ff.y[i + 1]?.getD 0 / p.z) ^ 2) / 2
    have hwf := squared_wf (z := p.z) hw h0
    obtain ⟨n, hn⟩ := Tab1D.loop_spec hwf (fun i => some (w i)) (by
      intro i hi law hlaw
      have hlw : law = 2 := by
        obtain ⟨k, hk, _⟩ := hlaw
        exact hl law (List.mem_of_getElem? hk)
      subst hlw
      have hix : i + 1 < ff.x.length := by simpa [squared] using hi
      have hy := hw.len
      have hxlt : (squared p.z ff).x[i] < (squared p.z ff).x[i + 1] := List.pairwise_iff_getElem.mp hwf.increasing _ _ _ _ (by omega)
      unfold Tab1D.panelAt
      rw [List.getElem?_eq_getElem (by omega), List.getElem?_eq_getElem hi, List.getElem?_eq_getElem (by rw [hwf.len]; omega), List.getElem?_eq_getElem (by rw [hwf.len]; exact hi)]
      simp only [Tab1D.panel]
      rw [if_neg (by linarith)]
      congr 2
      simp only [w, List.getElem?_eq_getElem hix, List.getElem?_eq_getElem (show i < ff.x.length by omega), List.getElem?_eq_getElem (show i < ff.y.length by omega),
        List.getElem?_eq_getElem (show i + 1 < ff.y.length by omega), Option.getD_some]
      have hd : ff.x[i + 1] * ff.x[i + 1] - ff.x[i] * ff.x[i] ≠ 0 := by
        simp only [squared, List.getElem_map] at hxlt
        linarith
      simp only [squared, List.getElem_map]
      rw [sq ff.x[i + 1], sq ff.x[i]]
      exact trapezoid hd)
    have hint : (squared p.z ff).integral = .ok (some 0 :: Tab1D.cumsumFrom (some 0) (((List.range ((squared p.z ff).x.length - 1)).map w).map some)) := by
      unfold Tab1D.integral
      simp only [hn, bind, Except.bind, List.map_map]
      rfl
    rw [hs] at hint
    have hs' := Except.ok.inj hint
    intro j hj
    rw [hs']
    have hxl : (squared p.z ff).x.length = ff.x.length := by simp [squared]
    cases j with
    | zero => simp
    | succ j =>
      rw [List.getElem?_cons_succ, Tab1D.cumsumFrom_get 0 _ j (by simp [hxl]; omega), sum_range_take _ _ _ (by rw [hxl]; omega), zero_add]

/-- C181 is false of a log-log form factor that begins at the momentum 0: all that is written after the first value is NaN. -/
theorem C181_origin_refuted (z : Int) : (squared z ⟨[0, 1, 2], [6, 3, 1], [3], [5]⟩).integral = .ok [some 0, none, none] := by
  simp [squared, Tab1D.integral, Tab1D.integralRegion, Tab1D.panelAt, Tab1D.panel, Tab1D.cumsumFrom, List.range_succ, bind, Except.bind, pure, Except.pure, List.range']

/-- C182 (partial): profiles that have their momenta in common are written with them, row by row, with the electrons and energies of the shells. Missing: profiles with different momenta; see the
refutation. -/
theorem C182_profiles_partial {f f' g : Grp ℝ} {p : PData} (h : exportHdf5 f p = .ok f') (hg : ElementGroup f' p.z g) {c : Compton ℝ} (hc : p.compton = some c) {pz : List ℝ}
    (hp : ∀ t ∈ c.profiles, t.x = pz) :
    ∃ sub, g.group c!"compton_profiles" = .ok sub ∧ sub.dset c!"num_electrons" = .ok (.vec c.electrons, []) ∧ sub.dset c!"binding_energy" = .ok (.vec c.binding, []) ∧
      sub.dset c!"pz" = .ok (.vec pz, []) ∧ sub.dset c!"J" = .ok (.rows (c.profiles.map fun t => t.y), []) := by
  obtain ⟨q⟩ := grid_of h hg
  have hk := q.hcompt
  rw [hc] at hk
  obtain ⟨j, js, hj, _, e⟩ := hk
  have hx : j.x = pz := hp j (by simp [hj])
  refine ⟨⟨[], [(c!"num_electrons", .data (.vec c.electrons) []), (c!"binding_energy", .data (.vec c.binding) []), (c!"pz", .data (.vec j.x) []),
    (c!"J", .data (.rows (c.profiles.map fun t => t.y)) [])]⟩, group_of (by rw [get_compton q, e]; rfl), rfl, rfl, by rw [hx]; rfl, rfl⟩

/-- C182 is false of profiles with different momenta, as those of ACE tables can be: the momenta of the first profile are written for all, and data that differ in the others give the same file. -/
theorem C182_momenta_refuted : ∃ c c' : Compton ℝ, c.profiles[1]?.map Tab1D.x ≠ c'.profiles[1]?.map Tab1D.x ∧
    ∀ (f : Grp ℝ) (p : PData), exportHdf5 f { p with compton := some c } = exportHdf5 f { p with compton := some c' } := by
  refine ⟨⟨[2, 2], [9, 4], [⟨[0, 1], [3, 1], [2], [2]⟩, ⟨[0, 1], [5, 4], [2], [2]⟩]⟩, ⟨[2, 2], [9, 4], [⟨[0, 1], [3, 1], [2], [2]⟩, ⟨[0, 7], [5, 4], [2], [2]⟩]⟩, by simp, ?_⟩
  intro f p
  rfl

/-- C182: stopping powers and bremsstrahlung are written as they are, and left out if there are none. -/
theorem C182_electrons {f f' g : Grp ℝ} {p : PData} (h : exportHdf5 f p = .ok f') (hg : ElementGroup f' p.z g) :
    (∀ e s, p.stopping = some (e, s) → ∃ sub, g.group c!"stopping_powers" = .ok sub ∧ getAttr sub.attrs c!"I" = .ok (.num s.i) ∧ sub.dset c!"energy" = .ok (.vec e, []) ∧
      sub.dset c!"s_collision" = .ok (.vec s.collision, []) ∧ sub.dset c!"s_radiative" = .ok (.vec s.radiative, [])) ∧
    (∀ e k d, p.brem = some (e, k, d) → ∃ sub, g.group c!"bremsstrahlung" = .ok sub ∧ sub.dset c!"electron_energy" = .ok (.vec e, []) ∧ sub.dset c!"photon_energy" = .ok (.vec k, []) ∧
      sub.dset c!"dcs" = .ok (.rows d, [])) ∧
    (p.stopping = none → g.has c!"stopping_powers" = false) ∧ (p.brem = none → g.has c!"bremsstrahlung" = false) ∧ (p.compton = none → g.has c!"compton_profiles" = false) := by
  obtain ⟨q⟩ := grid_of h hg
  refine ⟨?_, ?_, ?_, ?_, ?_⟩
  · intro e s hs
    exact ⟨⟨[(c!"I", .num s.i)], [(c!"energy", .data (.vec e) []), (c!"s_collision", .data (.vec s.collision) []), (c!"s_radiative", .data (.vec s.radiative) [])]⟩,
      group_of (by rw [get_stopping q, hs]; rfl), rfl, rfl, rfl, rfl⟩
  · intro e k d hs
    exact ⟨⟨[], [(c!"electron_energy", .data (.vec e) []), (c!"photon_energy", .data (.vec k) []), (c!"dcs", .data (.rows d) [])]⟩,
      group_of (by rw [get_brem q, hs]; rfl), rfl, rfl, rfl⟩
  · intro hs
    unfold Grp.has
    rw [get_stopping q, hs]; rfl
  · intro hs
    unfold Grp.has
    rw [get_brem q, hs]; rfl
  · intro hs
    have hk := q.hcompt
    rw [hs] at hk
    unfold Grp.has
    rw [get_compton q, show q.compt = [] from hk]; rfl

end ASAPy.Photon
