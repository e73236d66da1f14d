import Verif.FromAce.NuProps

/-! # Which MTs of a loaded table can be read (C82), and the examples for C78-C81 -/

set_option linter.unusedSimpArgs false

namespace ASAPy.FromAce
open ASAPy.Ace ASAPy.AceData

variable {K : Type} [Field K] [LinearOrder K] [FloorRing K] [IsStrictOrderedRing K] [ExpLog K]

/-- **C82, what holds.** Every MT the editor lists for a loaded table, apart from nu-bar and the fission spectrum, has energies and values. -/
theorem C82_listed_partial {t : AceData.Table K} {T : Ace.Table K} (h : load t = .ok T) {ed : Editor K} (hi : init T none = .ok ed) {mt : MT}
    (hm : mt ∈ ed.allMts) (hmt : mt ≠ 452 ∧ mt ≠ 1018) :
    ∃ x y, getEnergy ed mt = .ok (.arr x) ∧ getSigma ed mt none false = .ok (.arr y) := by
  obtain ⟨rs, hrs, hT⟩ := load_split h
  have hk : ∃ rx, Dict.get? rs mt = some rx := by
    unfold init chooseTemperature at hi
    rw [hT] at hi
    simp only [List.length_cons, List.length_nil] at hi
    cases hi
    unfold allMtsOf at hm
    simp only at hm
    have : mt ∈ Dict.keys (rs.map fun e => (e.1, e.2.toReaction (tempName t.temperature))) := by
      split_ifs at hm
      · rcases List.mem_append.mp hm with hm | hm
        · exact hm
        · simp only [List.mem_cons, List.not_mem_nil, or_false] at hm
          rcases hm with rfl | rfl
          · exact absurd rfl hmt.1
          · exact absurd rfl hmt.2
      · exact hm
    rw [← Dict.get?_isSome, get?_map] at this
    cases hg : Dict.get? rs mt with
    | none => rw [hg] at this; cases this
    | some rx => exact ⟨rx, rfl⟩
  obtain ⟨rx, hg⟩ := hk
  obtain ⟨_, h1, h2⟩ := editor_reads h hrs hg hi hmt
  exact ⟨_, _, h1, h2⟩

namespace Example
local instance : ExpLog ℚ := ⟨id, id⟩

def editor : Editor ℚ := ⟨loaded, loaded, "294K".toList, [1, 101, 2, 18, 102, 452, 1018], [], []⟩

theorem init_loaded : init loaded none = .ok editor := by decide +kernel

def nu : Tab ℚ := ⟨[], [], [1, 3], [3, 4]⟩

theorem notXs : NotXs table content 16 := by
  constructor
  · intro j hj hh
    have : j = 1 := by
      have h2 : JXS table 1 = some ((1 : Nat) : Int) := by decide +kernel
      rw [h2] at hj
      simpa using hj.symm
    subst this
    revert hh
    decide +kernel
  · intro j hj r hr hh
    have : j = 39 := by
      have h2 : JXS table 7 = some ((39 : Nat) : Int) := by decide +kernel
      rw [h2] at hj
      have := Option.some.inj hj
      omega
    subst this
    omega

theorem holdsNu : HoldsNu table content nu :=
  ⟨16, 7, by decide +kernel, by decide, by decide, by decide +kernel, notXs, at_of_take (by decide) (by decide +kernel), by
    refine ⟨rfl, rfl, ?_, ?_⟩ <;> decide +kernel⟩

theorem isFission : IsFission table 0 := ⟨35, 1, by decide +kernel, by decide +kernel, by decide +kernel, by decide⟩

theorem promptFirst : PromptFirst table content := ⟨16, by decide +kernel, by decide, -7, by decide +kernel, Or.inl ⟨by decide +kernel, notXs⟩⟩

def spectra : List (Spectrum ℚ) := [⟨16, 2, [0, 2], [1 / 2, 1 / 2], [0, 1]⟩, ⟨24, 2, [0, 4], [1 / 4, 1 / 4], [0, 1]⟩]

theorem holdsChi : HoldsChi table 0 [1, 3] spectra :=
  ⟨48, 49, 1, 10, [], [], by decide +kernel, by decide +kernel, by decide, by decide, by decide +kernel, by decide +kernel, by decide +kernel, by decide,
    by decide +kernel, rfl, rfl, at_of_take (by decide) (by decide +kernel), by
      intro s hs
      simp only [spectra, List.mem_cons, List.not_mem_nil, or_false] at hs
      rcases hs with rfl | rfl
      · exact ⟨by decide, by decide, rfl, rfl, by decide +kernel, at_of_take (by decide) (by decide +kernel)⟩
      · exact ⟨by decide, by decide, rfl, rfl, by decide +kernel, at_of_take (by decide) (by decide +kernel)⟩⟩

theorem last0 : content.Last 0 ⟨18, 1, [8, 9, 10], 1⟩ := by
  refine ⟨rfl, ?_⟩
  intro j r' hj hr'
  match j, hj with
  | 1, _ => cases hr'; decide
  | j + 2, _ => simp [content] at hr'

theorem last1 : content.Last 1 ⟨102, 2, [5, -1], 6⟩ := by
  refine ⟨rfl, ?_⟩
  intro j r' hj hr'
  match j, hj with
  | j + 2, _ => simp [content] at hr'

-- Capture, from the second energy on, with the negative value as zero (C78).
example : getSigma editor 102 none false = .ok (.arr [5, 0]) ∧ getEnergy editor 102 = .ok (.arr [2000000, 3000000]) := by
  obtain ⟨_, h1, h2⟩ := C78_reactions holds load_table init_loaded last1 (by unfold LeftOut; decide) (by decide)
  refine ⟨?_, ?_⟩
  · have : cleaned ([5, -1] : List ℚ) = [5, 0] := by decide +kernel
    rw [← this]; exact h2
  · have : content.energiesOf ⟨102, 2, [5, -1], 6⟩ = [2000000, 3000000] := by decide +kernel
    rw [← this]; exact h1

-- Total, elastic and absorption (C79).
example : getSigma editor 1 none false = .ok (.arr [20, 21, 22]) ∧ getSigma editor 2 none false = .ok (.arr (cleaned [10, -1, 12])) ∧
    getSigma editor 101 none false = .ok (.arr [5, 6, 7]) := by
  obtain ⟨h1, h2, h3⟩ := C79_main holds load_table init_loaded
  exact ⟨(h1 (by decide)).2.2, (h2 (by decide)).2.2, (h3 (by decide) ⟨5, by decide +kernel, by decide +kernel⟩).2.2⟩

-- Nu (C80) and the spectra (C81).
example : getSigma editor 452 none false = .ok (.arr [3, 4]) :=
  (C80_nu holds load_table init_loaded last0 rfl isFission holdsNu ⟨3, by decide +kernel, 4, by decide +kernel, by decide +kernel⟩).2.2
example : getSigma editor 1018 none false = .ok (.pdfs (spectra.map fun s => s.pdf.map (· / 1000000))) :=
  (C81_chi holds load_table init_loaded last0 rfl isFission promptFirst holdsChi).2.2

-- C82.
example : ∃ x y, getEnergy editor 102 = .ok (.arr x) ∧ getSigma editor 102 none false = .ok (.arr y) :=
  C82_listed_partial load_table init_loaded (by decide) (by decide)

/-- The same table with total nu only. -/
def table1 : AceData.Table ℚ := { table with xss := table.xss.set 15 2 |>.set 16 0 |>.set 17 2 |>.set 18 1 |>.set 19 3 |>.set 20 2 |>.set 21 3 }

def loaded1 : Ace.Table ℚ := ⟨["294K".toList],
  [(1, ⟨[("294K".toList, .linlin [1000000, 2000000, 3000000] [20, 21, 22])], none, none⟩),
   (101, ⟨[("294K".toList, .linlin [1000000, 2000000, 3000000] [5, 6, 7])], none, none⟩),
   (2, ⟨[("294K".toList, .linlin [1000000, 2000000, 3000000] [10, 0, 12])], none, none⟩),
   (18, ⟨[("294K".toList, .linlin [1000000, 2000000, 3000000] [8, 9, 10])], none,
      some ⟨false, [1000000, 3000000], [⟨[0, 2000000], [1 / 2000000, 1 / 2000000], [0, 1]⟩, ⟨[0, 4000000], [1 / 4000000, 1 / 4000000], [0, 1]⟩]⟩⟩),
   (102, ⟨[("294K".toList, .linlin [2000000, 3000000] [5, 0])], none, none⟩)]⟩

theorem load_table1 : load table1 = .ok loaded1 := by decide +kernel

end Example

/-- **C82 is false**: a table that gives one nu, the total one, loads; the editor lists nu-bar and the fission spectrum, and reading either raises. -/
theorem C82_listed_refuted : ∃ (t : AceData.Table ℚ) (T : Ace.Table ℚ) (ed : Editor ℚ), (letI : ExpLog ℚ := ⟨id, id⟩; load t = .ok T) ∧
    init T none = .ok ed ∧ 452 ∈ ed.allMts ∧ 1018 ∈ ed.allMts ∧
    (letI : ExpLog ℚ := ⟨id, id⟩; getSigma ed 452 none false = .error .indexError ∧ getSigma ed 1018 none false = .error .exception) :=
  ⟨Example.table1, Example.loaded1, ⟨Example.loaded1, Example.loaded1, "294K".toList, [1, 101, 2, 18, 102, 452, 1018], [], []⟩, Example.load_table1,
    by decide +kernel, by decide, by decide, by decide +kernel, by decide +kernel⟩

end ASAPy.FromAce
