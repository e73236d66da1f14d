import Verif.Dists.PhotonProps
import Verif.Dists.LawProps

/-! # Cases that meet the hypotheses of C109, C110, C113, C114 and C115 -/

namespace ASAPy.Dists.Example
open ASAPy.FromAce ASAPy.Func

local instance : ExpLog ℚ := ⟨id, id⟩

/-- A table with one distribution: its law, and its data from position 4 on. -/
def single (law : Nat) (data : List ℚ) : Arrays ℚ := ⟨[], [], [0, 0, (law : ℚ), 4] ++ data⟩

theorem single_law (law : Nat) (data : List ℚ) : LawIn (single law data) 1 1 law 4 := by
  refine ⟨by decide, 0, 4, by decide, rfl, ?_⟩
  intro k v hk
  match k, hk with
  | 0, hk => exact hk
  | 1, hk => exact hk
  | 2, hk => simpa [single] using hk
  | k + 3, hk => simp at hk

theorem single_at (law : Nat) (data : List ℚ) : AtL (single law data).xss 4 data := by
  intro k v hk
  rw [show (single law data).xss = [0, 0, (law : ℚ), 4] ++ data from rfl, List.getElem?_append_right (by simp)]
  simpa using hk

/-- Two regions, values 1, 2, 4 at 1, 2 and 20 MeV. -/
def theta : Tab ℚ := ⟨[2, 3], [2, 5], [1, 2, 20], [1, 2, 4]⟩

theorem theta_fits : Fits theta := ⟨rfl, rfl⟩

-- C109.
example : lawAt (single 7 (theta.numbers ++ [-20])) 1 none 1 1 = .ok (.maxwell (times 1000000 (tabEv theta)) (1000000 * -20)) :=
  C109_maxwell (single_law _ _) theta_fits (single_at _ _)

example : lawAt (single 9 (theta.numbers ++ [-20])) 1 none 1 1 = .ok (.evaporation (times 1000000 (tabEv theta)) (1000000 * -20)) :=
  C109_evaporation (single_law _ _) theta_fits (single_at _ _)

example : lawAt (single 11 (theta.numbers ++ theta.numbers ++ [-20])) 1 none 1 1 =
    .ok (.watt (times 1000000 (tabEv theta)) (times (1 / 1000000) (tabEv theta)) (1000000 * -20)) :=
  C109_watt (single_law _ _) theta_fits theta_fits (single_at _ _)

example : lawAt (single 33 [5 / 2, 1 / 2]) 1 none 1 1 = .ok (.level (1000000 * (5 / 2)) (1 / 2)) := C109_level (Or.inr rfl) (single_law _ _) (single_at _ _)

example : lawAt (single 2 [2, 5 / 2]) 235 none 1 1 = .ok (.discretePhoton 2 (1000000 * (5 / 2)) 235) :=
  C109_photon (single_law _ _) (flag := 2) (by simpa using single_at 2 [2, 5 / 2])

example : lawAt (single 66 [3, 5 / 2]) 235 (some (-1)) 1 1 = .ok (.nbody (5 / 2) 3 235 (-1)) :=
  C109_nbody (single_law _ _) (n := 3) (by simpa using single_at 66 [3, 5 / 2]) (by norm_num) (by decide) (by norm_num)

example : ∃ e, lawAt (single 5 []) 235 none 1 1 = .error e := C109_unsupported (single_law 5 []) (by decide)

example : (times 1000000 (tabEv theta)).eval (1000000 * (3 / 2)) = .ok (1000000 * (3 / 2)) :=
  C109_function_partial theta 1000000 (3 / 2) (by
    rintro e (h | h) <;> simp only [theta, List.head?_cons, List.getLast?_cons_cons, List.getLast?_singleton, Option.some.injEq] at h <;> subst h <;> decide +kernel) (3 / 2) (by decide +kernel)

-- An argument that is taken for the first energy in both units.
example : (times 1000000 (tabEv theta)).eval (1000000 * (1 + 1 / 10 ^ 6)) = .ok (1000000 * 1) :=
  C109_function_partial theta 1000000 (1 + 1 / 10 ^ 6) (by
    rintro e (h | h) <;> simp only [theta, List.head?_cons, List.getLast?_cons_cons, List.getLast?_singleton, Option.some.injEq] at h <;> subst h <;> decide +kernel) 1 (by decide +kernel)

/-- **C109 is false near the end points.** The table has the value 1 at 1 MeV and is linear up to the value 2 at 2 MeV; at 10⁻⁵ and 10⁻¹⁵ MeV above 1 MeV the file's table gives 1, the end value, and the
converted one the interpolated value. -/
theorem _root_.ASAPy.Dists.C109_window_refuted : ∃ (n : Tab ℚ) (E y y' : ℚ), Fits n ∧ (tabMev n).eval E = .ok y ∧ (times 1 (tabEv n)).eval (1000000 * E) = .ok y' ∧ y' ≠ y :=
  ⟨theta, 1 + 1 / 10 ^ 5 + 1 / 10 ^ 15, 1, 1 + 1 / 10 ^ 5 + 1 / 10 ^ 15, theta_fits, by decide +kernel, by decide +kernel, by norm_num⟩

/-- A spectrum with a line and two further points, at 10 in the block. -/
def lined (more : List (List ℚ)) : Lined ℚ := ⟨8, 2, [(1 / 2, 1 / 10, 1 / 10)], [(1, 3 / 10, 1 / 10), (4, 3 / 10, 1)], more⟩

-- C110.
example : lawAt (single 4 ([0, 1, 1, 8] ++ (lined []).numbers)) 1 none 1 1 = .ok (.continuous (headEv ⟨[], [], [1], []⟩) [.mixture (1 / 10) [500000] [1 / 10] [1 / 10] 2 [1000000, 4000000]
    [3 / 10000000, 3 / 10000000] [1 / 10, 1]]) := by
  refine (C110_continuous (spectra := [lined []]) (bps := []) (laws := []) (incident := [1]) (single_law _ _) ⟨rfl, rfl, at_of_take (by decide +kernel)⟩ (by
    intro s hs
    rw [List.mem_singleton] at hs
    subst hs
    exact ⟨by decide, Or.inr rfl, rfl, by simp [lined], by simp [lined], by simp [lined]; norm_num, at_of_take (by decide +kernel)⟩)).trans ?_
  decide +kernel

/-- With the two rows of Kalbach and Mann. -/
def rows : List (List ℚ) := [[0, 1 / 5, 1 / 2], [1, 2, 3]]

example : lawAt (single 44 ([0, 1, 1, 8] ++ (lined rows).numbers)) 1 none 1 1 = .ok (.kalbach (headEv ⟨[], [], [1], []⟩) [(lined rows).inEv]
    [.linlin [500000, 1000000, 4000000] [0, 1 / 5, 1 / 2]] [.linlin [500000, 1000000, 4000000] [1, 2, 3]]) := by
  refine (C110_kalbach (spectra := [lined rows]) (bps := []) (laws := []) (incident := [1]) (single_law _ _) ⟨rfl, rfl, at_of_take (by decide +kernel)⟩ (by
    intro s hs
    rw [List.mem_singleton] at hs
    subst hs
    exact ⟨by decide, Or.inr rfl, rfl, by simp [lined, rows, Lined.all], by simp [lined], by simp, at_of_take (by decide +kernel)⟩)).trans ?_
  decide +kernel

/-- A table of cosines after the spectrum. -/
def cosines : CosTable ℚ := ⟨22, 2, [-1, 1], [1 / 4, 3 / 4], [0, 1]⟩

example : lawAt (single 61 ([0, 1, 1, 8] ++ (lined [[0, 22, 0]]).numbers ++ [2, 2, -1, 1, 1 / 4, 3 / 4, 0, 1])) 1 none 1 1 = .ok (.correlated (headEv ⟨[], [], [1], []⟩) [(lined [[0, 22, 0]]).inEv]
    [[.uniform, .tabular 2 [-1, 1] [1 / 4, 3 / 4] [0, 1], .uniform]]) := by
  refine (C110_correlated (spectra := [(lined [[0, 22, 0]], [none, some cosines, none])]) (bps := []) (laws := []) (incident := [1]) (single_law _ _) ⟨rfl, rfl, at_of_take (by decide +kernel)⟩
    (by
      intro s hs
      rw [List.mem_singleton] at hs
      subst hs
      exact ⟨by decide, Or.inr rfl, rfl, by simp [lined, Lined.all], by simp [lined], by simp, at_of_take (by decide +kernel)⟩)
    (by
      intro s hs
      rw [List.mem_singleton] at hs
      subst hs
      refine ⟨by decide +kernel, fun t ht => ?_⟩
      simp only [List.mem_cons, List.not_mem_nil, or_false] at ht
      rcases ht with rfl | rfl | rfl
      · trivial
      · exact ⟨by decide, by decide, by decide, rfl, rfl, by simp [cosines]; norm_num, at_of_take (by decide +kernel)⟩
      · trivial)).trans ?_
  decide +kernel

-- C113 for fission.
example : ∃ f, ∀ fuel, 1 ≤ fuel → neutronsOf arrays 1 0 18 fuel 2 = some (.ok ⟨false, [⟨.total, 0, f, [tabEv always], [level]⟩], [], none⟩) := by
  obtain ⟨f, -, h⟩ := C112_total (a := arrays) (nu := .polynomial [12 / 5, 1 / 10]) (j24 := 0) ⟨1, rfl, by decide, at_of_take (by decide +kernel), by simp [Nu.Good]⟩ 1 rfl le_rfl
  exact ⟨f, C113_fission (a := arrays) (i := 2) (start := 12) (loc := 0) (dlw := 15)
    ⟨⟨3, rfl, by decide, by decide⟩, ⟨5, [-2, 19, -2], rfl, at_of_take (by decide +kernel), rfl⟩, ⟨12, [1, 12, 21], rfl, at_of_take (by decide +kernel), rfl⟩,
      ⟨8, [0, 0, 0, -1], rfl, at_of_take (by decide +kernel), rfl⟩, rfl⟩ le_rfl (Or.inl rfl) (by decide) h chain_one⟩

/-! ### Photons -/

/-- A photon of radiative capture, with a yield of 1 to 2. -/
def first : Photon ℚ := ⟨102001, 1, .yields 12 102 ⟨[], [], [1, 3], [1, 2]⟩, 1, .discretePhoton 2 2000000 235, 0, [], []⟩

/-- Another one, with a production cross section at 2 and 3 MeV. -/
def second : Photon ℚ := ⟨102002, 9, .crossSection 2 [1, 4], 1, .discretePhoton 2 2000000 235, 0, [], []⟩

/-- A photon of inelastic scattering with a yield and an angular distribution. -/
def third : Photon ℚ := ⟨4001, 14, .yields 16 4 ⟨[], [], [1, 3], [1, 2]⟩, 1, .discretePhoton 2 2000000 235, 1, [1], [.isotropic]⟩

/-- The photons of the table. -/
def photons : List (Photon ℚ) := [first, second, third]

/-- The grid at 1, photon numbers at 4, their places at 7, productions from 10 on, places of spectra at 31, the spectrum at 34, places of angles at 39, angles at 42. -/
def photonArrays : Arrays ℚ where
  nxs := [0, 0, 0, 0, 0, 0, 3]
  jxs := [0, 1, 0, 0, 0, 0, 0, 0, 0, 0, 0, 0, 0, 4, 7, 10, 39, 42, 31, 34]
  xss := [0] ++ [1, 2, 3] ++ [102001, 102002, 4001] ++ [1, 9, 14] ++ [12, 102, 0, 2, 1, 3, 1, 2] ++ [13, 2, 2, 1, 4] ++ [16, 4, 0, 2, 1, 3, 1, 2] ++ [1, 1, 1] ++ [0, 2, 4, 2, 2] ++
    [0, 0, 1] ++ [1, 1, 0]

theorem photons_in : HoldsPhotons photonArrays 235 [1, 2, 3] photons where
  count := rfl
  main := ⟨1, rfl, at_of_take (by decide +kernel)⟩
  numbers := ⟨4, rfl, at_of_take (by decide +kernel)⟩
  productions := ⟨7, 10, rfl, rfl, at_of_take (by decide +kernel), by
    intro p hp
    simp only [photons, List.mem_cons, List.not_mem_nil, or_false] at hp
    rcases hp with rfl | rfl | rfl
    · exact ⟨by decide, at_of_take (by decide +kernel), Or.inl rfl, rfl, ⟨rfl, rfl⟩, by simp⟩
    · exact ⟨by decide, at_of_take (by decide +kernel), by decide, by decide, by simp⟩
    · exact ⟨by decide, at_of_take (by decide +kernel), Or.inr rfl, rfl, ⟨rfl, rfl⟩, by simp⟩⟩
  spectra := ⟨31, 34, rfl, rfl, at_of_take (by decide +kernel), by
    intro p hp
    simp only [photons, List.mem_cons, List.not_mem_nil, or_false] at hp
    rcases hp with rfl | rfl | rfl <;> exact ⟨by decide +kernel, rfl⟩⟩
  angles := ⟨39, 42, rfl, rfl, at_of_take (by decide +kernel), by
    intro p hp
    simp only [photons, List.mem_cons, List.not_mem_nil, or_false] at hp
    rcases hp with rfl | rfl | rfl
    · exact Or.inl rfl
    · exact Or.inl rfl
    · exact Or.inr ⟨rfl, by simp [Cosines.In, third], at_of_take (by decide +kernel)⟩⟩

-- C114: capture has two photons. Its cross section is 2 barn between 1 and 3 MeV, so the second yield is 1/2 and 2.
example : ∃ r s, photonsOf photonArrays 235 102 (Tab1D.linlin [1000000, 3000000] [2, 2]) = .ok [r, s] ∧ s.1 = .linlin [2000000, 3000000] [1 / 2, 2] := by
  have hw : Tab1D.WF (Tab1D.linlin [1000000, 3000000] [2, 2] : Tab1D ℚ) := by
    constructor <;> simp [Tab1D.linlin] <;> norm_num
  obtain ⟨rs, h1, h2⟩ := C114_photons photons_in hw 102
  have hf : photons.filter (fun p => p.number / 1000 = 102) = [first, second] := by simp [photons, first, second, third]
  rw [hf] at h2
  obtain ⟨r, rs', -, h3, rfl⟩ := List.forall₂_cons_left_iff.mp h2
  obtain ⟨s, rs'', hs, h4, rfl⟩ := List.forall₂_cons_left_iff.mp h3
  rw [List.forall₂_nil_left_iff] at h4
  subst h4
  refine ⟨r, s, h1, ?_⟩
  obtain ⟨hs, -⟩ := hs
  have hs : (Production.crossSection 2 [1, 4] : Production ℚ).Is [1, 2, 3] (Tab1D.linlin [1000000, 3000000] [2, 2]) s.1 := hs
  unfold Production.Is at hs
  obtain ⟨ys, hy, hl, hk⟩ := hs
  rw [hy]
  obtain ⟨u, v, rfl⟩ := List.length_eq_two.mp hl
  obtain ⟨s0, e0, f0, -⟩ := hk 0 2 1 u (by simp) (by simp) (by simp)
  obtain ⟨s1, e1, f1, -⟩ := hk 1 3 4 v (by simp) (by simp) (by simp)
  have g0 : (Tab1D.linlin [1000000, 3000000] [2, 2] : Tab1D ℚ).eval (1000000 * 2) = .ok 2 := by decide +kernel
  have g1 : (Tab1D.linlin [1000000, 3000000] [2, 2] : Tab1D ℚ).eval (1000000 * 3) = .ok 2 := by decide +kernel
  rw [g0, Except.ok.injEq] at e0
  rw [g1, Except.ok.injEq] at e1
  subst e0 e1
  have hu : u = 1 / 2 := by linarith [f0 (by norm_num)]
  have hv : v = 2 := by linarith [f1 (by norm_num)]
  subst hu hv
  decide +kernel

/-! ### Probability tables -/

-- C115.
example : urr (⟨[], List.replicate 23 0 ++ [1], [0] ++ [1, 2, 5, -1, -1, 1] ++ [1 / 10] ++ [1 / 2, 1, 1, 2, 3, 4, 5, 6, 7, 8, 9, 10]⟩ : Arrays ℚ) =
    .ok (some ⟨[100000], [[[1 / 2, 1], [1, 2], [3, 4], [5, 6], [7, 8], [9000000, 10000000]]], 5, -1, -1, true⟩) := by
  rw [C115_urr (interpolation := 5) (inelastic := -1) (absorption := -1) (smooth := 1) (m := 2) (energies := [1 / 10]) (rows := [[[1 / 2, 1], [1, 2], [3, 4], [5, 6], [7, 8], [9, 10]]])
    ⟨⟨1, rfl, by decide, at_of_take (by decide +kernel)⟩, rfl, by simp⟩ (Or.inr rfl)]
  decide +kernel

end ASAPy.Dists.Example
