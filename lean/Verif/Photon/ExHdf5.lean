import Verif.Photon.MoreHdf5

/-!
# Photon data to which the theorems C178-C182 apply
-/

namespace ASAPy.Photon
open ASAPy.Endf (Line)
open ASAPy.Hdf5 (Grp Node Val Attrs getAttr get?_app)

/-- A shell with one radiative transition from L1. -/
noncomputable def exShells : List (Shell ℝ) := [⟨1, 24, 2, [⟨2, 0, 20, 1⟩]⟩, ⟨2, 4, 0, []⟩]

/-- Data of helium with all parts; the cross section of the shell begins at the energy 2. -/
noncomputable def exData : PData where
  z := 2
  reactions := [(502, { mt := 502, xs := some (Tab1D.linlin [1, 2, 4] [5, 4, 3]), factor := some (Tab1D.linlin [0, 1, 3] [2, 1, 0]), real := some (Tab1D.linlin [1, 4] [0, 1]) }),
    (504, { mt := 504, xs := some (Tab1D.linlin [1, 4] [6, 9]), factor := some (Tab1D.linlin [0, 1] [0, 2]) }),
    (517, { mt := 517, xs := some (Tab1D.linlin [3, 4] [1, 2]) }),
    (522, { mt := 522, xs := some (Tab1D.linlin [1, 4] [8, 1]) }),
    (534, { mt := 534, xs := some (Tab1D.linlin [2, 4] [7, 1]) })]
  relax := some (relaxOf exShells)
  compton := some ⟨[2], [24], [Tab1D.linlin [0, 1] [1, 2]]⟩
  stopping := some ([1, 2], ⟨42, [3, 2], [1, 1]⟩)
  brem := some ([1], [0, 1], [[3, 4]])

theorem wf2 {a b c d : ℝ} (h : a < b) : Tab1D.WF (Tab1D.linlin [a, b] [c, d]) := Func.linlin_wf (by simp [h]) rfl (by simp)

theorem wf3 {a b c u v w : ℝ} (h : a < b) (h' : b < c) : Tab1D.WF (Tab1D.linlin [a, b, c] [u, v, w]) := Func.linlin_wf (by simp [h, h', h.trans h']) rfl (by simp)

theorem exWritable : Writable exData where
  element := ⟨c!"He", by decide +kernel⟩
  nodup := by simp [exData]
  xs := by
    intro r hr
    simp only [exData, List.mem_cons, List.not_mem_nil, or_false] at hr
    rcases hr with rfl | rfl | rfl | rfl | rfl
    · exact ⟨_, rfl, wf3 (by norm_num) (by norm_num)⟩
    all_goals exact ⟨_, rfl, wf2 (by norm_num)⟩
  needed := by
    intro mt hm
    simp only [List.mem_cons, List.not_mem_nil, or_false] at hm
    rcases hm with rfl | rfl | rfl
    · exact ⟨_, by simp only [exData, List.mem_cons]; exact Or.inl rfl⟩
    · exact ⟨_, by simp only [exData, List.mem_cons]; exact Or.inr (Or.inl rfl)⟩
    · exact ⟨_, by simp only [exData, List.mem_cons]; exact Or.inr (Or.inr (Or.inr (Or.inl rfl)))⟩
  tables := by
    intro r hr t ht
    simp only [exData, List.mem_cons, List.not_mem_nil, or_false] at hr
    rcases hr with rfl | rfl | rfl | rfl | rfl <;> simp at ht
    · rcases ht with rfl | rfl
      · exact wf3 (by norm_num) (by norm_num)
      · exact wf2 (by norm_num)
    · subst ht
      exact wf2 (by norm_num)
  momenta := by
    intro r t hr ht v hv
    simp only [exData, List.mem_cons, List.not_mem_nil, or_false, Prod.mk.injEq] at hr
    rcases hr with ⟨_, rfl⟩ | ⟨h, _⟩ | ⟨h, _⟩ | ⟨h, _⟩ | ⟨h, _⟩
    · simp at ht
      subst ht
      simp [Tab1D.linlin] at hv
      rcases hv with rfl | rfl | rfl <;> norm_num
    all_goals norm_num at h
  relax := by
    intro q hq
    refine ⟨exShells, (Option.some.inj hq).symm, by simp [exShells], ?_, ?_⟩
    · simp [exShells, Shell.Known]
    · intro d h1 h2 ⟨r, hr⟩
      simp only [exData, List.mem_cons, List.not_mem_nil, or_false, Prod.mk.injEq] at hr
      have : d = 1 := by omega
      subst this
      exact ⟨_, by simp only [exShells, List.mem_cons]; exact Or.inl rfl, rfl⟩
  compton := by
    intro c hc
    cases hc
    exact ⟨by simp, 2, by simp [Tab1D.linlin]⟩

/-- C178: these data are written into an empty file. -/
example : ∃ f', exportHdf5 Grp.empty exData = .ok f' := C178_written exWritable (fun _ _ => rfl)

/-- C179: the shell of these data starts at the second of the four energies. -/
example : ∃ f' g sub shell ys, exportHdf5 Grp.empty exData = .ok f' ∧ ElementGroup f' 2 g ∧ g.group c!"subshells" = .ok sub ∧ sub.group c!"K" = .ok shell ∧
    shell.dset c!"xs" = .ok (.vec ys, [(c!"threshold_idx", .int 1)]) ∧ ys.length = 3 ∧ getAttr shell.attrs c!"binding_energy" = .ok (.num 24) ∧
    shell.dset c!"transitions" = .ok (.rows [[2, 0, 20, 1]], []) := by
  obtain ⟨f', hf⟩ := C178_written exWritable (f := Grp.empty) (fun _ _ => rfl)
  obtain ⟨g, grid, hg, _, he, hc, _⟩ := C178_cross_sections hf
  obtain ⟨sub, h1, _, h2⟩ := C179_shells hf hg he
  obtain ⟨name, shell, t, idx, ys, hn, hs, ht, hd, _, hi, hv, _, hr⟩ := h2 1 _ (by norm_num) (by norm_num) (show ((533 : Int) + ((1 : Nat) : Int), _) ∈ exData.reactions by
    simp only [exData, List.mem_cons]; exact Or.inr (Or.inr (Or.inr (Or.inr (Or.inl rfl)))))
  have hname : name = c!"K" := by
    have : shellName 1 = some c!"K" := rfl
    rw [this] at hn
    exact (Option.some.inj hn).symm
  subst hname
  cases ht
  have hgrid : grid = [1, 2, 3, 4] := by
    refine List.Perm.eq_of_pairwise' (r := (· < ·)) hc.1 (by simp; norm_num) ?_
    rw [List.perm_ext_iff_of_nodup (hc.1.imp ne_of_lt) (by simp)]
    intro v
    rw [hc.2 v]
    simp only [exData, List.mem_cons, List.not_mem_nil, or_false]
    constructor
    · rintro ⟨r, hr, t, ht, hv⟩
      rcases hr with rfl | rfl | rfl | rfl | rfl <;> simp only [Option.some.injEq] at ht <;> subst ht <;> simp [Tab1D.linlin] at hv <;> tauto
    · rintro (rfl | rfl | rfl | rfl)
      · exact ⟨_, Or.inl rfl, _, rfl, by simp [Tab1D.linlin]⟩
      · exact ⟨_, Or.inl rfl, _, rfl, by simp [Tab1D.linlin]⟩
      · exact ⟨_, Or.inr (Or.inr (Or.inl rfl)), _, rfl, by simp [Tab1D.linlin]⟩
      · exact ⟨_, Or.inl rfl, _, rfl, by simp [Tab1D.linlin]⟩
  subst hgrid
  have hidx : idx = 1 := by
    simp only [Tab1D.linlin, List.head?_cons] at hi
    match idx, hi with
    | 0, hi => norm_num at hi
    | 1, _ => rfl
    | 2, hi => norm_num at hi
    | 3, hi => norm_num at hi
    | n + 4, hi => simp at hi
  subst hidx
  obtain ⟨s, hsm, hsd, hb, _, _, hj⟩ := hr exShells rfl (by simp [exShells]) (by simp [exShells, Shell.Known])
  simp only [exShells, List.mem_cons, List.not_mem_nil, or_false] at hsm
  rcases hsm with rfl | rfl
  · refine ⟨f', g, sub, shell, ys, hf, hg, h1, hs, hd, ?_, hb, ?_⟩
    · have := hv.length_eq
      simpa using this.symm
    · simpa using hj (by simp)
  · norm_num at hsd

/-- C180: a cross section that the theorem applies to. -/
example : Func.LinTab 1 4 (Tab1D.linlin [1, 2, 4] [5, 4, 3] : Tab1D ℝ) ∧ ¬ Tab1D.TakenFor (1 : ℝ) 4 ∧ Func.Fine (1 : ℝ) 4 2 := by
  refine ⟨⟨wf3 (by norm_num) (by norm_num), by simp [Tab1D.linlin], rfl, rfl, ?_⟩, by norm_num [Tab1D.TakenFor], Or.inr (Or.inr ⟨by norm_num [Tab1D.TakenFor], by norm_num [Tab1D.TakenFor]⟩)⟩
  intro x hx
  simp [Tab1D.linlin] at hx
  rcases hx with rfl | rfl | rfl
  · exact Or.inl rfl
  · exact Or.inr (Or.inr ⟨by norm_num [Tab1D.TakenFor], by norm_num [Tab1D.TakenFor]⟩)
  · exact Or.inr (Or.inl rfl)

end ASAPy.Photon
