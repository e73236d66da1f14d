import Verif.Photon.ShellsHdf5

/-!
# Properties C178-C182: what `IncidentPhoton.export_to_hdf5` writes
-/

namespace ASAPy.Photon
open ASAPy.Endf (Line)
open ASAPy.Hdf5 (Grp Node Val Attrs getAttr get?_app)

theorem skip {l m : List (Line × Node ℝ)} {n k : Line} (h : ∀ q ∈ l, q.1 = n) (hk : n ≠ k) : Dict.get? (l ++ m) k = Dict.get? m k := by
  rw [get?_app]
  have : Dict.get? l k = none := by
    rw [Dict.get?_eq_none]
    intro hc
    obtain ⟨q, hq, he⟩ := List.mem_map.mp hc
    exact hk ((h q hq).symm.trans he)
  rw [this]
  rfl

theorem compton_keys {c : Option (Compton ℝ)} {l : List (Line × Node ℝ)} (h : comptonItems c l) : ∀ q ∈ l, q.1 = c!"compton_profiles" := by
  cases c with
  | none => rw [show l = [] from h]; simp
  | some c =>
    obtain ⟨j, js, _, _, rfl⟩ := h
    simp

theorem stopping_keys (s : Option (List ℝ × SGroup ℝ)) : ∀ q ∈ stoppingItems s, q.1 = c!"stopping_powers" := by
  cases s <;> simp [stoppingItems]

theorem brem_keys (s : Option (List ℝ × List ℝ × List (List ℝ))) : ∀ q ∈ bremItems s, q.1 = c!"bremsstrahlung" := by
  cases s <;> simp [bremItems]

theorem maybe_keys {p : PData} {grid : List ℝ} {mt : Int} {k : Line} {l : List (Line × Node ℝ)} (h : Maybe p grid mt k l) : ∀ q ∈ l, q.1 = k := by
  rcases h with ⟨_, rfl⟩ | ⟨_, _, _, _, rfl⟩ <;> simp

theorem coh_keys {p : PData} {grid : List ℝ} {l : List (Line × Node ℝ)} (h : Coherent p grid l) : ∀ q ∈ l, q.1 = c!"coherent" := by
  obtain ⟨_, _, _, _, _, _, _, _, _, _, rfl⟩ := h
  simp

theorem incoh_keys {p : PData} {grid : List ℝ} {l : List (Line × Node ℝ)} (h : Incoherent p grid l) : ∀ q ∈ l, q.1 = c!"incoherent" := by
  obtain ⟨_, _, _, _, _, _, rfl⟩ := h
  simp

section lookups
variable {p : PData} {g : Grp ℝ} (q : Parts p g)
include q

theorem get_energy : Dict.get? g.items c!"energy" = some (.data (.vec q.grid) []) := by
  rw [q.eq]; rfl

theorem get_coherent : Dict.get? g.items c!"coherent" = Dict.get? q.coh c!"coherent" := by
  rw [q.eq]
  rw [skip (n := c!"energy") (by simp) (by decide)]
  obtain ⟨_, _, _, _, _, _, _, _, _, _, e⟩ := q.hcoh
  rw [e]; rfl

theorem get_incoherent : Dict.get? g.items c!"incoherent" = Dict.get? q.incoh c!"incoherent" := by
  rw [q.eq]
  rw [skip (n := c!"energy") (by simp) (by decide), skip (coh_keys q.hcoh) (by decide)]
  obtain ⟨_, _, _, _, _, _, e⟩ := q.hincoh
  rw [e]; rfl

theorem get_electron : Dict.get? g.items c!"pair_production_electron" = Dict.get? q.pairE c!"pair_production_electron" := by
  rw [q.eq]
  rw [skip (n := c!"energy") (by simp) (by decide), skip (coh_keys q.hcoh) (by decide), skip (incoh_keys q.hincoh) (by decide), get?_app]
  rw [skip (maybe_keys q.hpairN) (by decide), skip (n := c!"photoelectric") (by simp) (by decide), skip (n := c!"subshells") (by simp) (by decide),
    skip (compton_keys q.hcompt) (by decide), skip (stopping_keys _) (by decide), ← List.append_nil (bremItems p.brem), skip (brem_keys _) (by decide)]
  simp [Dict.get?]

theorem get_nuclear : Dict.get? g.items c!"pair_production_nuclear" = Dict.get? q.pairN c!"pair_production_nuclear" := by
  rw [q.eq]
  rw [skip (n := c!"energy") (by simp) (by decide), skip (coh_keys q.hcoh) (by decide), skip (incoh_keys q.hincoh) (by decide), skip (maybe_keys q.hpairE) (by decide), get?_app]
  rw [skip (n := c!"photoelectric") (by simp) (by decide), skip (n := c!"subshells") (by simp) (by decide),
    skip (compton_keys q.hcompt) (by decide), skip (stopping_keys _) (by decide), ← List.append_nil (bremItems p.brem), skip (brem_keys _) (by decide)]
  simp [Dict.get?]

theorem get_photoelectric : Dict.get? g.items c!"photoelectric" = some q.cp.node := by
  rw [q.eq]
  rw [skip (n := c!"energy") (by simp) (by decide), skip (coh_keys q.hcoh) (by decide), skip (incoh_keys q.hincoh) (by decide), skip (maybe_keys q.hpairE) (by decide),
    skip (maybe_keys q.hpairN) (by decide)]
  rfl

theorem get_subshells : Dict.get? g.items c!"subshells" = some (q.st.1.attr c!"designators" (.strs q.st.2)).node := by
  rw [q.eq]
  rw [skip (n := c!"energy") (by simp) (by decide), skip (coh_keys q.hcoh) (by decide), skip (incoh_keys q.hincoh) (by decide), skip (maybe_keys q.hpairE) (by decide),
    skip (maybe_keys q.hpairN) (by decide), skip (n := c!"photoelectric") (by simp) (by decide)]
  rfl

theorem get_compton : Dict.get? g.items c!"compton_profiles" = Dict.get? q.compt c!"compton_profiles" := by
  rw [q.eq]
  rw [skip (n := c!"energy") (by simp) (by decide), skip (coh_keys q.hcoh) (by decide), skip (incoh_keys q.hincoh) (by decide), skip (maybe_keys q.hpairE) (by decide),
    skip (maybe_keys q.hpairN) (by decide), skip (n := c!"photoelectric") (by simp) (by decide), skip (n := c!"subshells") (by simp) (by decide), get?_app,
    skip (stopping_keys _) (by decide), ← List.append_nil (bremItems p.brem), skip (brem_keys _) (by decide)]
  simp [Dict.get?]

theorem get_stopping : Dict.get? g.items c!"stopping_powers" = Dict.get? (stoppingItems p.stopping) c!"stopping_powers" := by
  rw [q.eq]
  rw [skip (n := c!"energy") (by simp) (by decide), skip (coh_keys q.hcoh) (by decide), skip (incoh_keys q.hincoh) (by decide), skip (maybe_keys q.hpairE) (by decide),
    skip (maybe_keys q.hpairN) (by decide), skip (n := c!"photoelectric") (by simp) (by decide), skip (n := c!"subshells") (by simp) (by decide),
    skip (compton_keys q.hcompt) (by decide), get?_app, ← List.append_nil (bremItems p.brem), skip (brem_keys _) (by decide)]
  simp [Dict.get?]

theorem get_brem : Dict.get? g.items c!"bremsstrahlung" = Dict.get? (bremItems p.brem) c!"bremsstrahlung" := by
  rw [q.eq]
  rw [skip (n := c!"energy") (by simp) (by decide), skip (coh_keys q.hcoh) (by decide), skip (incoh_keys q.hincoh) (by decide), skip (maybe_keys q.hpairE) (by decide),
    skip (maybe_keys q.hpairN) (by decide), skip (n := c!"photoelectric") (by simp) (by decide), skip (n := c!"subshells") (by simp) (by decide),
    skip (compton_keys q.hcompt) (by decide), skip (stopping_keys _) (by decide)]

end lookups

theorem group_of {g : Grp ℝ} {k : Line} {c : Grp ℝ} (h : Dict.get? g.items k = some c.node) : g.group k = .ok c := by
  unfold Grp.group
  rw [h]
  rfl

theorem dset_of {g : Grp ℝ} {k : Line} {v : Val ℝ} {a : Attrs ℝ} (h : Dict.get? g.items k = some (.data v a)) : g.dset k = .ok (v, a) := by
  unfold Grp.dset
  rw [h]

/-- The group of the element has been written piece by piece. -/
theorem written {f f' : Grp ℝ} {p : PData} (h : exportHdf5 f p = .ok f') : ∃ g, ElementGroup f' p.z g ∧ Nonempty (Parts p g) := by
  obtain ⟨sym, g, h1, h2, h3, h4⟩ := exportHdf5_ok h
  refine ⟨g, ⟨sym, h1, group_of ?_⟩, h2⟩
  rw [h4]
  simp only
  rw [get?_app, h3]
  simp [Dict.get?]

/-- In a file that has the group of one element there is no second one under the same atomic number. -/
theorem element_unique {f : Grp ℝ} {z : Int} {g g' : Grp ℝ} (h : ElementGroup f z g) (h' : ElementGroup f z g') : g = g' := by
  obtain ⟨s, hs, e⟩ := h
  obtain ⟨s', hs', e'⟩ := h'
  have hn : (AceData.atomicSymbol.map Prod.fst).Nodup := by decide +kernel
  have h1 := AceData.get?_of_mem hn hs
  have h2 := AceData.get?_of_mem hn hs'
  rw [h1] at h2
  cases h2
  rw [e] at e'
  exact Except.ok.inj e'

/-- C178: after an export the group of the element has the energies of all reactions, each once and in ascending order, and the values of the five cross sections at all of them; the two pair
productions are there exactly if the data have them. -/
theorem C178_cross_sections {f f' : Grp ℝ} {p : PData} (h : exportHdf5 f p = .ok f') :
    ∃ g grid, ElementGroup f' p.z g ∧ getAttr g.attrs c!"Z" = .ok (.int p.z) ∧ g.dset c!"energy" = .ok (.vec grid, []) ∧ CommonEnergies p grid ∧
      ∀ mt k, (mt, k) ∈ xsNames →
        (∀ r, Dict.get? p.reactions mt = some r → ∃ t sub ys, r.xs = some t ∧ g.group k = .ok sub ∧ sub.dset c!"xs" = .ok (.vec ys, []) ∧ ValuesAt t grid ys) ∧
        (Dict.get? p.reactions mt = none → (mt = 515 ∨ mt = 517) ∧ g.has k = false) := by
  obtain ⟨g, hg, ⟨q⟩⟩ := written h
  refine ⟨g, q.grid, hg, by rw [q.attrsEq]; rfl, dset_of (get_energy q), q.common, ?_⟩
  have maybe : ∀ {mt : Int} {k : Line} {l : List (Line × Node ℝ)}, Maybe p q.grid mt k l → Dict.get? g.items k = Dict.get? l k → (mt = 515 ∨ mt = 517) →
      (∀ r, Dict.get? p.reactions mt = some r → ∃ t sub ys, r.xs = some t ∧ g.group k = .ok sub ∧ sub.dset c!"xs" = .ok (.vec ys, []) ∧ ValuesAt t q.grid ys) ∧
        (Dict.get? p.reactions mt = none → (mt = 515 ∨ mt = 517) ∧ g.has k = false) := by
    intro mt k l hl he hmt
    rcases hl with ⟨h1, rfl⟩ | ⟨r, c, h1, ⟨t, ys, h2, h3, rfl⟩, rfl⟩
    · refine ⟨fun r hr => (by rw [h1] at hr; cases hr), fun _ => ⟨hmt, ?_⟩⟩
      unfold Grp.has; rw [he]; rfl
    · refine ⟨fun r' hr => ?_, fun hn => (by rw [h1] at hn; cases hn)⟩
      rw [h1] at hr; cases hr
      exact ⟨t, ⟨[], [(c!"xs", .data (.vec ys) [])]⟩, ys, h2, group_of (by rw [he]; simp only [Dict.get?, if_true]), rfl, h3⟩
  intro mt k hk
  simp only [xsNames, List.mem_cons, Prod.mk.injEq, List.not_mem_nil, or_false] at hk
  rcases hk with ⟨rfl, rfl⟩ | ⟨rfl, rfl⟩ | ⟨rfl, rfl⟩ | ⟨rfl, rfl⟩ | ⟨rfl, rfl⟩
  · obtain ⟨r, c, l1, l2, l3, h1, ⟨t, ys, h2, h3, rfl⟩, _, _, _, e⟩ := q.hcoh
    refine ⟨fun r' hr => ?_, fun hn => (by rw [h1] at hn; cases hn)⟩
    rw [h1] at hr; cases hr
    exact ⟨t, _, ys, h2, group_of (by rw [get_coherent q, e]; rfl), rfl, h3⟩
  · obtain ⟨r, c, l1, h1, ⟨t, ys, h2, h3, rfl⟩, _, e⟩ := q.hincoh
    refine ⟨fun r' hr => ?_, fun hn => (by rw [h1] at hn; cases hn)⟩
    rw [h1] at hr; cases hr
    exact ⟨t, _, ys, h2, group_of (by rw [get_incoherent q, e]; rfl), rfl, h3⟩
  · exact maybe q.hpairE (get_electron q) (Or.inl rfl)
  · exact maybe q.hpairN (get_nuclear q) (Or.inr rfl)
  · refine ⟨fun r' hr => ?_, fun hn => (by rw [q.hrp] at hn; cases hn)⟩
    rw [q.hrp] at hr; cases hr
    obtain ⟨t, ys, h2, h3, e⟩ := q.hcp
    exact ⟨t, _, ys, h2, group_of (get_photoelectric q), by rw [e]; rfl, h3⟩

/-- C178: what else the file holds stays, and the file says what it is; a version that it has stays. -/
theorem C178_file {f f' : Grp ℝ} {p : PData} (h : exportHdf5 f p = .ok f') :
    (∀ k, (p.z, k) ∉ AceData.atomicSymbol → Dict.get? f'.items k = Dict.get? f.items k) ∧ (∀ k, (p.z, k) ∈ AceData.atomicSymbol → Dict.get? f.items k = none) ∧
    getAttr f'.attrs c!"filetype" = .ok (.str c!"data_photon") ∧
    getAttr f'.attrs c!"version" = .ok ((Dict.get? f.attrs c!"version").getD (.ints [2, 0])) := by
  obtain ⟨sym, g, h1, h2, h3, rfl⟩ := exportHdf5_ok h
  have hn : (AceData.atomicSymbol.map Prod.fst).Nodup := by decide +kernel
  refine ⟨fun k hk => ?_, fun k hk => ?_, ?_, ?_⟩
  · rw [get?_app]
    have : sym ≠ k := by rintro rfl; exact hk h1
    simp [Dict.get?, this]
  · have e1 := AceData.get?_of_mem hn h1
    have e2 := AceData.get?_of_mem hn hk
    rw [e1] at e2; cases e2
    exact h3
  · have hs : Dict.get? (stamped f).attrs c!"filetype" = some (.str c!"data_photon") := by
      unfold stamped
      simp only
      split
      · exact Dict.get?_set_same _ _ _
      · unfold Grp.attr
        simp only
        rw [Dict.get?_set_ne _ _ (by decide), Dict.get?_set_same]
    unfold getAttr
    rw [hs]
  · have hv : Dict.get? (f.attr c!"filetype" (.str c!"data_photon")).attrs c!"version" = Dict.get? f.attrs c!"version" := Dict.get?_set_ne _ _ (by decide)
    unfold getAttr stamped
    simp only
    rw [hv]
    cases hf : Dict.get? f.attrs c!"version" with
    | some v =>
      simp only [Option.isSome_some, if_true, hv, hf, Option.getD_some]
    | none =>
      simp only [Option.isSome_none, Bool.false_eq_true, if_false, Option.getD_none]
      rw [show Dict.get? ((f.attr c!"filetype" (.str c!"data_photon")).attr c!"version" (.ints [2, 0])).attrs c!"version" = some (.ints [2, 0]) from Dict.get?_set_same _ _ _]

/-- C178: data without coherent or incoherent scattering or without the photoelectric effect are refused. -/
theorem C178_needed {f : Grp ℝ} {p : PData} {mt : Int} (hm : mt ∈ [502, 504, 522]) (h : ∀ r, (mt, r) ∉ p.reactions) : ∀ f', exportHdf5 f p ≠ .ok f' := by
  intro f' hf
  obtain ⟨g, _, ⟨q⟩⟩ := written hf
  simp only [List.mem_cons, List.not_mem_nil, or_false] at hm
  rcases hm with rfl | rfl | rfl
  · obtain ⟨r, _, _, _, _, h1, _⟩ := q.hcoh
    exact h r (mem_of_get h1)
  · obtain ⟨r, _, _, h1, _⟩ := q.hincoh
    exact h r (mem_of_get h1)
  · exact h _ (mem_of_get q.hrp)

end ASAPy.Photon
