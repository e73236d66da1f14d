import Verif.Photon.PropsHdf5

/-!
# Property C178: photon data that are complete can be written
-/

namespace ASAPy.Photon
open ASAPy.Endf (Line)
open ASAPy.Hdf5 (Grp Node Val Attrs getAttr get?_app)

theorem add_new {g : Grp ℝ} {k : Line} (n : Node ℝ) (h : Dict.get? g.items k = none) : g.add k n = .ok ⟨g.attrs, g.items ++ [(k, n)]⟩ := by
  unfold Grp.add
  rw [h]
  rfl

theorem none_app {l m : List (Line × Node ℝ)} {n k : Line} (h : Dict.get? l k = none) (hm : ∀ q ∈ m, q.1 = n) (hk : n ≠ k) : Dict.get? (l ++ m) k = none := by
  rw [get?_app, h, ← List.append_nil m, skip hm hk]
  rfl

theorem cumsum_length (acc : Option ℝ) (l : List (Option ℝ)) : (Tab1D.cumsumFrom acc l).length = l.length := by
  induction l generalizing acc with
  | nil => rfl
  | cons a l ih => simp [Tab1D.cumsumFrom, ih]

theorem integral_total {t : Tab1D ℝ} (hw : Tab1D.WF t) : ∃ s, t.integral = .ok s ∧ s.length = t.x.length := by
  classical
  have hp : ∀ (law i : Nat), i + 1 < t.x.length → ∃ v, Tab1D.panelAt t law i = .ok v := by
    intro law i hi
    have hy := hw.len
    unfold Tab1D.panelAt
    rw [List.getElem?_eq_getElem (by omega), List.getElem?_eq_getElem hi, List.getElem?_eq_getElem (by omega), List.getElem?_eq_getElem (by omega)]
    exact ⟨_, rfl⟩
  have hu : ∀ (i l l' : Nat), Tab1D.LawAt t i l → Tab1D.LawAt t i l' → l = l' := by
    intro i l l' ⟨k, hk, h1, b, hb, h2⟩ ⟨k', hk', h1', b', hb', h2'⟩
    have hpw := List.pairwise_iff_getElem.mp hw.bp_increasing
    have key : ∀ {k k' : Nat} {b : Int}, t.breakpoints[k]? = some b → (i : Int) + 2 ≤ b → (k' = 0 ∨ ∃ b, t.breakpoints[k' - 1]? = some b ∧ b ≤ (i : Int) + 1) → ¬ k < k' := by
      intro k k' b hb h2 h1' hlt
      rcases h1' with h0 | ⟨c, hc, hci⟩
      · omega
      · obtain ⟨i1, e1⟩ := List.getElem?_eq_some_iff.mp hb
        obtain ⟨i2, e2⟩ := List.getElem?_eq_some_iff.mp hc
        rcases Nat.lt_or_ge k (k' - 1) with h | h
        · have := hpw k (k' - 1) i1 i2 h
          omega
        · have : k = k' - 1 := by omega
          subst this
          omega
    have e : k = k' := le_antisymm (not_lt.mp (key hb' h2' h1)) (not_lt.mp (key hb h2 h1'))
    subst e
    rw [hk] at hk'
    exact Option.some.inj hk'
  let g : Nat → Option ℝ := fun i => if h : ∃ v law, Tab1D.LawAt t i law ∧ Tab1D.panelAt t law i = .ok v then h.choose else none
  obtain ⟨n, hn⟩ := Tab1D.loop_spec hw g (by
    intro i hi law hl
    obtain ⟨v, hv⟩ := hp law i hi
    have hex : ∃ v law, Tab1D.LawAt t i law ∧ Tab1D.panelAt t law i = .ok v := ⟨v, law, hl, hv⟩
    obtain ⟨law', hl', hv'⟩ := hex.choose_spec
    have : law' = law := hu i _ _ hl' hl
    subst this
    simp only [g, dif_pos hex]
    exact hv')
  refine ⟨some 0 :: Tab1D.cumsumFrom (some 0) ((List.range (t.x.length - 1)).map g), by unfold Tab1D.integral; simp only [hn, bind, Except.bind], ?_⟩
  have := List.length_pos_of_ne_nil hw.nonempty
  simp only [List.length_cons, cumsum_length, List.length_map, List.length_range]
  omega

theorem squared_wf {z : Int} {t : Tab1D ℝ} (h : Tab1D.WF t) (h0 : ∀ v ∈ t.x, 0 ≤ v) : Tab1D.WF (squared z t) where
  increasing := by
    simp only [squared, List.pairwise_map]
    refine h.increasing.imp_of_mem ?_
    intro a b ha hb hab
    exact mul_self_lt_mul_self (h0 a ha) hab
  len := by simp [squared, h.len]
  nonempty := by simpa [squared] using h.nonempty
  bp_increasing := h.bp_increasing
  bp_pos := h.bp_pos
  bp_last := by simpa [squared] using h.bp_last
  laws := h.laws

theorem addTab_total {k : Line} {g : Grp ℝ} {t : Option (Tab1D ℝ)} (ht : ∀ u, t = some u → Tab1D.WF u) (hg : Dict.get? g.items k = none) : ∃ g', addTab k g t = .ok g' := by
  cases t with
  | none => exact ⟨g, rfl⟩
  | some u =>
    unfold addTab Hdf5.tabTo Hdf5.vstack
    simp only [if_pos (ht u rfl).len.symm]
    exact ⟨_, add_new _ hg⟩

theorem addFactor_total {z : Int} {g : Grp ℝ} {t : Option (Tab1D ℝ)} (ht : ∀ u, t = some u → Tab1D.WF u ∧ ∀ v ∈ u.x, 0 ≤ v)
    (hg : Dict.get? g.items c!"integrated_scattering_factor" = none) : ∃ g', addFactor z g t = .ok g' := by
  cases t with
  | none => exact ⟨g, rfl⟩
  | some u =>
    obtain ⟨s, hs, hl⟩ := integral_total (squared_wf (z := z) (ht u rfl).1 (ht u rfl).2)
    unfold addFactor
    simp only [hs, Hdf5.ok_bind]
    rw [if_pos hl.symm]
    exact ⟨_, add_new _ hg⟩

theorem xsGroup_total {r : PRx ℝ} {t : Tab1D ℝ} (h : r.xs = some t) (hw : Tab1D.WF t) (grid : List ℝ) : ∃ g, xsGroup r grid = .ok g := by
  obtain ⟨ys, hy⟩ := evals_total hw grid
  unfold xsGroup
  simp only [h, hy, Hdf5.ok_bind]
  exact ⟨_, add_new _ rfl⟩

theorem factor_keys {z : Int} {t : Option (Tab1D ℝ)} {l : List (Line × Node ℝ)} (h : factorItems z t l) : ∀ q ∈ l, q.1 = c!"integrated_scattering_factor" := by
  cases t with
  | none => rw [show l = [] from h]; simp
  | some t => obtain ⟨_, _, _, rfl⟩ := h; simp

theorem tab_keys {k : Line} {t : Option (Tab1D ℝ)} {l : List (Line × Node ℝ)} (h : tabItems k t l) : ∀ q ∈ l, q.1 = k := by
  cases t with
  | none => rw [show l = [] from h]; simp
  | some t => obtain ⟨_, rfl⟩ := h; simp

theorem reactionOf_some {p : PData} (hp : Writable p) {mt : Int} (hm : mt ∈ [502, 504, 522]) : ∃ r, (mt, r) ∈ p.reactions ∧ reactionOf p.reactions mt = .ok r := by
  obtain ⟨r, hr⟩ := hp.needed mt hm
  refine ⟨r, hr, ?_⟩
  unfold reactionOf
  rw [AceData.get?_of_mem hp.nodup hr]

theorem addCoherent_total {p : PData} (hp : Writable p) (grid : List ℝ) {g : Grp ℝ} (hg : Dict.get? g.items c!"coherent" = none) : ∃ g', addCoherent p grid g = .ok g' := by
  obtain ⟨r, hr, e⟩ := reactionOf_some hp (mt := 502) (by simp)
  obtain ⟨t, ht, hw⟩ := hp.xs _ hr
  obtain ⟨c, hc⟩ := xsGroup_total ht hw grid
  obtain ⟨_, ys, _, _, hc'⟩ := xsGroup_ok hc
  obtain ⟨c1, h1⟩ := addFactor_total (z := p.z) (g := c) (t := r.factor) (fun u hu => ⟨hp.tables _ hr u (Or.inl hu), hp.momenta r u hr hu⟩) (by rw [hc']; rfl)
  obtain ⟨l1, k1, e1⟩ := addFactor_ok h1
  obtain ⟨c2, h2⟩ := addTab_total (k := c!"anomalous_real") (g := c1) (t := r.real) (fun u hu => hp.tables _ hr u (Or.inr (Or.inl hu)))
    (by rw [e1]; exact none_app (by rw [hc']; rfl) (factor_keys k1) (by decide))
  obtain ⟨l2, k2, e2⟩ := addTab_ok h2
  obtain ⟨c3, h3⟩ := addTab_total (k := c!"anomalous_imag") (g := c2) (t := r.imag) (fun u hu => hp.tables _ hr u (Or.inr (Or.inr hu)))
    (by rw [e2]; exact none_app (by rw [e1]; exact none_app (by rw [hc']; rfl) (factor_keys k1) (by decide)) (tab_keys k2) (by decide))
  unfold addCoherent
  simp only [e, hc, h1, h2, h3, Hdf5.ok_bind]
  exact ⟨_, add_new _ hg⟩

theorem addIncoherent_total {p : PData} (hp : Writable p) (grid : List ℝ) {g : Grp ℝ} (hg : Dict.get? g.items c!"incoherent" = none) : ∃ g', addIncoherent p grid g = .ok g' := by
  obtain ⟨r, hr, e⟩ := reactionOf_some hp (mt := 504) (by simp)
  obtain ⟨t, ht, hw⟩ := hp.xs _ hr
  obtain ⟨c, hc⟩ := xsGroup_total ht hw grid
  obtain ⟨_, ys, _, _, hc'⟩ := xsGroup_ok hc
  obtain ⟨c1, h1⟩ := addTab_total (k := c!"scattering_factor") (g := c) (t := r.factor) (fun u hu => hp.tables _ hr u (Or.inl hu)) (by rw [hc']; rfl)
  unfold addIncoherent
  simp only [e, hc, h1, Hdf5.ok_bind]
  exact ⟨_, add_new _ hg⟩

theorem addPair_total {p : PData} (hp : Writable p) (grid : List ℝ) (mt : Int) {k : Line} {g : Grp ℝ} (hg : Dict.get? g.items k = none) : ∃ g', addPair p grid mt k g = .ok g' := by
  unfold addPair
  cases hd : Dict.get? p.reactions mt with
  | none => exact ⟨g, rfl⟩
  | some r =>
    obtain ⟨t, ht, hw⟩ := hp.xs _ (mem_of_get hd)
    obtain ⟨c, hc⟩ := xsGroup_total ht hw grid
    simp only [hc, Hdf5.ok_bind]
    exact ⟨_, add_new _ hg⟩

theorem addPhotoelectric_total {p : PData} (hp : Writable p) (grid : List ℝ) {g : Grp ℝ} (hg : Dict.get? g.items c!"photoelectric" = none) : ∃ g', addPhotoelectric p grid g = .ok g' := by
  obtain ⟨r, hr, e⟩ := reactionOf_some hp (mt := 522) (by simp)
  obtain ⟨t, ht, hw⟩ := hp.xs _ hr
  obtain ⟨c, hc⟩ := xsGroup_total ht hw grid
  unfold addPhotoelectric
  simp only [e, hc, Hdf5.ok_bind]
  exact ⟨_, add_new _ hg⟩

theorem relax_total {p : PData} (hp : Writable p) {d : Nat} (h1 : 1 ≤ d) (h2 : d ≤ 39) (hr : ∃ r, (533 + (d : Int), r) ∈ p.reactions) {name : Line} (hn : shellName d = some name) :
    ∃ g, addRelax name Grp.empty p.relax = .ok g ∧ Dict.get? g.items c!"xs" = none := by
  cases hq : p.relax with
  | none => exact ⟨_, rfl, rfl⟩
  | some q =>
    obtain ⟨ss, rfl, hnd, hk, hall⟩ := hp.relax q hq
    obtain ⟨s, hs, rfl⟩ := hall d h1 h2 hr
    refine ⟨_, addRelax_of hs hnd hk hn, ?_⟩
    simp only
    split <;> rfl

theorem shells_total {p : PData} (hp : Writable p) {grid : List ℝ} (hgrid : grid.Pairwise (· < ·)) (rxs : List (Int × PRx ℝ)) :
    ∀ (st : Grp ℝ × List Line), (∀ r ∈ rxs, r ∈ p.reactions) → (∀ r ∈ rxs, ∀ t, r.2.xs = some t → ∀ v ∈ t.x, v ∈ grid) → (rxs.map Prod.fst).Nodup →
      (∀ d : Nat, 1 ≤ d → d ≤ 39 → 533 + (d : Int) ∈ rxs.map Prod.fst → ∀ n, shellName d = some n → Dict.get? st.1.items n = none) →
      ∃ st', rxs.foldlM (addShell p grid) st = .ok st' := by
  induction rxs with
  | nil => exact fun st _ _ _ _ => ⟨st, rfl⟩
  | cons r rxs ih =>
    intro st hsub hin hnd hfree
    rw [List.map_cons, List.nodup_cons] at hnd
    rw [List.foldlM_cons]
    by_cases hr : r.1 ≥ 534 ∧ r.1 ≤ 572
    · obtain ⟨d, hd1, hd2, hmt, hd⟩ := subshell_of hr.1 hr.2
      obtain ⟨name, hname⟩ := Option.isSome_iff_exists.mp (name_some d hd1 hd2)
      obtain ⟨g0, h0, hno⟩ := relax_total hp hd1 hd2 ⟨r.2, by rw [← hmt]; exact hsub r (by simp)⟩ hname
      obtain ⟨t, ht, hw⟩ := hp.xs r (hsub r (by simp))
      obtain ⟨g1, h1⟩ := addShellXs_total hw hgrid (hin r (by simp) t ht) hno
      have hstep : addShell p grid st r = .ok (⟨st.1.attrs, st.1.items ++ [(name, g1.node)]⟩, st.2 ++ [name]) := by
        unfold addShell
        rw [if_pos hr, hd, hname]
        simp only [h0, ht, h1, Hdf5.ok_bind, add_new g1.node (hfree d hd1 hd2 (by rw [← hmt]; simp) name hname)]
        rfl
      rw [hstep]
      refine ih _ (fun q hq => hsub q (by simp [hq])) (fun q hq => hin q (by simp [hq])) hnd.2 ?_
      intro e he1 he2 hem n hn
      refine none_app (n := name) (hfree e he1 he2 (by simp only [List.map_cons, List.mem_cons]; exact Or.inr hem) n hn) (by simp) ?_
      rintro rfl
      have := name_inj hd2 he2 (hname.trans hn.symm)
      subst this
      rw [← hmt] at hem
      exact hnd.1 hem
    · have hstep : addShell p grid st r = .ok st := by
        unfold addShell
        rw [if_neg hr]
      rw [hstep]
      exact ih _ (fun q hq => hsub q (by simp [hq])) (fun q hq => hin q (by simp [hq])) hnd.2
        (fun e he1 he2 hem n hn => hfree e he1 he2 (by simp only [List.map_cons, List.mem_cons]; exact Or.inr hem) n hn)

/-- C178: complete data are written into every file that does not have the element yet. -/
theorem C178_written {f : Grp ℝ} {p : PData} (hp : Writable p) (hf : ∀ sym, (p.z, sym) ∈ AceData.atomicSymbol → f.has sym = false) : ∃ f', exportHdf5 f p = .ok f' := by
  obtain ⟨grid, hgrid⟩ := unionGrid_total (p := p) fun r hr => (hp.xs r hr).imp fun t h => h.1
  obtain ⟨hcommon, _⟩ := unionGrid_ok hgrid
  obtain ⟨g2, h2⟩ := addCoherent_total hp grid (g := ⟨[(c!"Z", .int p.z)], [(c!"energy", .data (.vec grid) [])]⟩) (by simp [Dict.get?])
  obtain ⟨l2, k2, e2⟩ := addCoherent_ok h2
  have n2 : ∀ k, k ≠ c!"energy" → k ≠ c!"coherent" → Dict.get? g2.items k = none := by
    intro k ha hb
    rw [e2]
    exact none_app (by simp [Dict.get?, ha.symm]) (coh_keys k2) hb.symm
  obtain ⟨g3, h3⟩ := addIncoherent_total hp grid (n2 c!"incoherent" (by decide) (by decide))
  obtain ⟨l3, k3, e3⟩ := addIncoherent_ok h3
  have n3 : ∀ k, k ≠ c!"energy" → k ≠ c!"coherent" → k ≠ c!"incoherent" → Dict.get? g3.items k = none := by
    intro k ha hb hc
    rw [e3]
    exact none_app (n2 k ha hb) (incoh_keys k3) hc.symm
  obtain ⟨g4, h4⟩ := addPair_total hp grid 515 (n3 c!"pair_production_electron" (by decide) (by decide) (by decide))
  obtain ⟨l4, k4, e4⟩ := addPair_ok h4
  have n4 : ∀ k, k ≠ c!"energy" → k ≠ c!"coherent" → k ≠ c!"incoherent" → k ≠ c!"pair_production_electron" → Dict.get? g4.items k = none := by
    intro k ha hb hc hd
    rw [e4]
    exact none_app (n3 k ha hb hc) (maybe_keys k4) hd.symm
  obtain ⟨g5, h5⟩ := addPair_total hp grid 517 (n4 c!"pair_production_nuclear" (by decide) (by decide) (by decide) (by decide))
  obtain ⟨l5, k5, e5⟩ := addPair_ok h5
  have n5 : ∀ k, k ≠ c!"energy" → k ≠ c!"coherent" → k ≠ c!"incoherent" → k ≠ c!"pair_production_electron" → k ≠ c!"pair_production_nuclear" → Dict.get? g5.items k = none := by
    intro k ha hb hc hd he
    rw [e5]
    exact none_app (n4 k ha hb hc hd) (maybe_keys k5) he.symm
  obtain ⟨g6, h6⟩ := addPhotoelectric_total hp grid (n5 c!"photoelectric" (by decide) (by decide) (by decide) (by decide) (by decide))
  obtain ⟨r6, c6, _, _, e6⟩ := addPhotoelectric_ok h6
  have n6 : ∀ k, k ≠ c!"energy" → k ≠ c!"coherent" → k ≠ c!"incoherent" → k ≠ c!"pair_production_electron" → k ≠ c!"pair_production_nuclear" → k ≠ c!"photoelectric" →
      Dict.get? g6.items k = none := by
    intro k ha hb hc hd he hf
    rw [e6]
    exact none_app (n := c!"photoelectric") (n5 k ha hb hc hd he) (by simp) hf.symm
  obtain ⟨st, hst⟩ := shells_total hp hcommon.1 p.reactions (Grp.empty, []) (fun _ h => h) (fun r hr t ht v hv => (hcommon.2 v).mpr ⟨r, hr, t, ht, hv⟩) hp.nodup (fun _ _ _ _ _ _ => rfl)
  have h7 : addShells p grid g6 = .ok ⟨g6.attrs, g6.items ++ [(c!"subshells", (st.1.attr c!"designators" (.strs st.2)).node)]⟩ := by
    unfold addShells
    simp only [hst, Hdf5.ok_bind]
    exact add_new _ (n6 _ (by decide) (by decide) (by decide) (by decide) (by decide) (by decide))
  generalize hg7 : (⟨g6.attrs, g6.items ++ [(c!"subshells", (st.1.attr c!"designators" (.strs st.2)).node)]⟩ : Grp ℝ) = g7 at h7
  have n7 : ∀ k, k ≠ c!"energy" → k ≠ c!"coherent" → k ≠ c!"incoherent" → k ≠ c!"pair_production_electron" → k ≠ c!"pair_production_nuclear" → k ≠ c!"photoelectric" →
      k ≠ c!"subshells" → Dict.get? g7.items k = none := by
    intro k ha hb hc hd he hf hg
    rw [← hg7]
    exact none_app (n := c!"subshells") (n6 k ha hb hc hd he hf) (by simp) hg.symm
  obtain ⟨g8, h8⟩ : ∃ g8, addCompton g7 p.compton = .ok g8 := by
    cases hc : p.compton with
    | none => exact ⟨_, rfl⟩
    | some c =>
      obtain ⟨hne, n, hlen⟩ := hp.compton c hc
      unfold addCompton
      cases hpr : c.profiles with
      | nil => exact absurd hpr hne
      | cons j js =>
        simp only [hpr]
        rw [if_pos (by
          rw [List.all_eq_true]
          intro t ht
          simp only [decide_eq_true_eq]
          rw [hlen t (by simp [hpr, ht]), hlen j (by simp [hpr])])]
        exact ⟨_, add_new _ (n7 _ (by decide) (by decide) (by decide) (by decide) (by decide) (by decide) (by decide))⟩
  obtain ⟨l8, k8, e8⟩ := addCompton_ok h8
  obtain ⟨g9, h9⟩ : ∃ g9, addStopping g8 p.stopping = .ok g9 := by
    cases hs : p.stopping with
    | none => exact ⟨_, rfl⟩
    | some s =>
      exact ⟨_, add_new _ (by rw [e8]; exact none_app (n7 _ (by decide) (by decide) (by decide) (by decide) (by decide) (by decide) (by decide)) (compton_keys k8) (by decide))⟩
  have e9 := addStopping_ok h9
  obtain ⟨g10, h10⟩ : ∃ g10, addBrem g9 p.brem = .ok g10 := by
    cases hs : p.brem with
    | none => exact ⟨_, rfl⟩
    | some s =>
      exact ⟨_, add_new _ (by
        rw [e9]
        refine none_app ?_ (stopping_keys _) (by decide)
        rw [e8]; exact none_app (n7 _ (by decide) (by decide) (by decide) (by decide) (by decide) (by decide) (by decide)) (compton_keys k8) (by decide))⟩
  have hel : elementGroup p = .ok g10 := by
    unfold elementGroup
    simp only [hgrid, Hdf5.ok_bind]
    rw [show (Grp.empty.attr c!"Z" (Val.int p.z)).add c!"energy" (.data (.vec grid) []) = .ok (⟨[(c!"Z", .int p.z)], [(c!"energy", .data (.vec grid) [])]⟩ : Grp ℝ) from rfl]
    simp only [h2, h3, h4, h5, h6, h7, h8, h9, Hdf5.ok_bind]
    exact h10
  obtain ⟨sym, hsym⟩ := hp.element
  have hn : (AceData.atomicSymbol.map Prod.fst).Nodup := by decide +kernel
  unfold exportHdf5
  simp only [AceData.get?_of_mem hn hsym, hf sym hsym, Bool.false_eq_true, if_false, hel, Hdf5.ok_bind]
  refine ⟨_, add_new _ ?_⟩
  rw [stamped_items]
  simpa [Grp.has] using hf sym hsym

end ASAPy.Photon
