import Verif.Multipole.Limit
import Verif.Multipole.PropsHdf5

/-! # Examples -/

namespace ASAPy.Multipole

/-- One window from 1 to 4 eV with one pole. -/
noncomputable def exM : Wmp :=
  ⟨c!"U238", 1, 15, 1, 3, 3, [[⟨1.5, -0.1⟩, ⟨1, 0⟩, ⟨2, 1⟩]], [[1, 1]], [true], 3, 2, [[[1, 2], [0, 1], [3, 0]]]⟩

theorem exValid : exM.Valid := by
  refine ⟨?_, ?_, ?_, ?_, ?_, ?_, ?_, ?_, ?_, ?_, ?_, ?_⟩ <;> simp [exM]
  exact ⟨1, 1, by simp⟩

theorem exWindow : exM.InWindow 0 2 := by
  unfold Wmp.InWindow exM
  simp only
  constructor <;> norm_num

theorem exAxis : exM.OffAxis 0 := by
  intro r hr
  have : exM.poles 0 = [[⟨1.5, -0.1⟩, ⟨1, 0⟩, ⟨2, 1⟩]] := rfl
  rw [this] at hr
  simp only [List.mem_singleton] at hr
  subst hr
  norm_num

example : ∃ x, evaluate exM 2 0 = .ok (x, false) ∧ (∀ c, exM.HasChannel c → 2 * x.get c = exM.fit 0 c (Real.sqrt 2) + exM.resonances 0 c (Real.sqrt 2)) ∧
    (exM.fissionable = false → x.f = 0) :=
  C185_cold exValid (by simp [exM]) (by norm_num) (by simp [exM]) (by norm_num [exM]) exWindow

example : ∃ x, evaluate exM 2 293.6 = .ok (x, false) ∧ x.f = 0 := by
  obtain ⟨x, h, _, f⟩ := C186_warm exValid (i := 0) (by simp [exM]) exAxis (E := 2) (T := 293.6) (by norm_num) (by norm_num) (by simp [exM]) (by norm_num [exM]) exWindow
  exact ⟨x, h, f (by simp [Wmp.fissionable, exM])⟩

example := C190_limit exValid (i := 0) (by simp [exM]) exAxis (E := 2) (by norm_num) (by simp [exM]) (by norm_num [exM]) exWindow

/-- All energies within the limits have cross sections. -/
example {E T : ℝ} (hl : 1 ≤ E) (hu : E ≤ 3) (hT : 0 ≤ T) : ∃ x, evaluate exM E T = .ok (x, false) := by
  obtain ⟨_, x, _, _, h⟩ := C184_within_partial exValid (by simp [exM]; norm_num) (by linarith) hT hl hu
  exact ⟨x, h⟩

/-- The same with the upper limit at the end of the last window. -/
noncomputable def exFull : Wmp := { exM with eMax := 4 }

theorem exFullValid : exFull.Valid := by
  refine ⟨?_, ?_, ?_, ?_, ?_, ?_, ?_, ?_, ?_, ?_, ?_, ?_⟩ <;> simp [exFull, exM]
  exact ⟨1, 1, by simp⟩

example : evaluate exFull 4 293.6 = .error .indexError :=
  C184_limit_refuted exFullValid (by simp [exFull, exM]; norm_num) (by simp [exFull]) (by norm_num [exFull, exM]) (by norm_num)

/-- A window without poles, whose scattering cross section is `1/E`. -/
noncomputable def exV : Wmp := ⟨c!"H1", 1, 1, 1, 3, 3, [], [[1, 0]], [false], 3, 2, [[[1, 0], [0, 0], [0, 0]]]⟩

theorem exVValid : exV.Valid := by
  refine ⟨?_, ?_, ?_, ?_, ?_, ?_, ?_, ?_, ?_, ?_, ?_, ?_⟩ <;> simp [exV]
  exact ⟨1, by simp⟩

/-- The cross section at 2 eV is 1/2, but 0 in an array whose first energy is below the limit. -/
example : ∃ x, evaluate exV 2 0 = .ok (x, false) ∧ x.s = 1 / 2 ∧ (∃ l y, call exV [0.5, 2] 0 = .ok [l, y] ∧ y.s = 0) ∧ ∃ l, call exV [2, 0.5] 0 = .ok [x, l] := by
  obtain ⟨x, h, e, _⟩ := C185_cold exVValid (i := 0) (E := 2) (by simp [exV]) (by norm_num) (by simp [exV]) (by norm_num [exV])
    (by unfold Wmp.InWindow exV; simp only; constructor <;> norm_num)
  have s := e 0 (Or.inl (by norm_num))
  have f : exV.fit 0 0 (Real.sqrt 2) = 1 := by
    unfold Wmp.fit exV
    simp [Finset.sum_range_succ]
  have r : exV.resonances 0 0 (Real.sqrt 2) = 0 := by
    have : exV.poles 0 = [] := rfl
    simp [Wmp.resonances, this]
  rw [f, r] at s
  have hx : x.s = 1 / 2 := by
    have : 2 * x.s = 1 + 0 := s
    linarith
  obtain ⟨a, b⟩ := C189_first_refuted (m := exV) (low := 0.5) (e := 2) (T := 0) (by norm_num [exV]) h
  refine ⟨x, h, hx, ⟨_, _, a, ?_⟩, _, b⟩
  simp only [hx, FromAce.pyTrunc]
  norm_num

example : ∃ f, exportTo {} exM = .ok f ∧ fromFile f = .ok exM := C191_round_trip exValid (by norm_num [exM])

/-- Hydrogen exported before uranium comes back from the file. -/
example : ∃ f f', exportTo {} exV = .ok f ∧ exportTo f exM = .ok f' ∧ fromFile f' = .ok exV := by
  have n : exV.name ≠ exM.name := by decide
  refine ⟨_, { version := some [1, 1], groups := [(exV.name, toGroup exV), (exM.name, toGroup exM)] }, rfl, ?_, ?_⟩
  · unfold exportTo
    rw [if_neg (by simp [Dict.get?, n])]
    rfl
  · refine C191_two_refuted exVValid (by norm_num [exV]) (by decide) (f := { version := some [1, 1], groups := [(exV.name, toGroup exV)] }) (n := exM) rfl ?_
    unfold exportTo
    rw [if_neg (by simp [Dict.get?, n])]
    rfl

example : ∃ fs, broadenPolynomials 1 2 4 = .ok fs ∧ ∀ f ∈ fs, 0 < f := C187_positive one_pos two_pos (by norm_num)
example := C187_exact (E := 1) (d := 2) one_pos two_pos (by norm_num) (n := 5) (by norm_num)
example := C187_close (E := 1) (d := 7) one_pos (by norm_num) (by norm_num) (n := 5) (by norm_num)

end ASAPy.Multipole
