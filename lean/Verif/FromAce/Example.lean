import Verif.FromAce.Props
import Mathlib.Data.Rat.Floor

/-! # A small ACE table: fission with nu and a spectrum, and capture with a negative cross section -/

set_option linter.unusedSimpArgs false

namespace ASAPy.FromAce
open ASAPy.Ace

theorem at_of_take {K : Type} [Field K] {t : AceData.Table K} {p : Nat} {vs : List K} (hp : 0 < p)
    (h : (t.xss.drop (p - 1)).take vs.length = vs) : At t p vs := by
  intro k v hk
  unfold XSS
  rw [if_neg (by omega), show p + k - 1 = p - 1 + k by omega, ← List.getElem?_drop]
  have hl : k < vs.length := by
    by_contra hc
    rw [List.getElem?_eq_none (by omega)] at hk
    cases hk
  have h2 : ((t.xss.drop (p - 1)).take vs.length)[k]? = some v := by rw [h]; exact hk
  rw [List.getElem?_take, if_pos hl] at h2
  exact h2

namespace Example
local instance : ExpLog ℚ := ⟨id, id⟩

def table : AceData.Table ℚ where
  name := "92235.80c".toList
  awr := 233
  temperature := 253 / 10 ^ 10
  pairs := []
  nxs := [79, 92235, 3, 2, 1, 0, 0, 0, 0, 0, 0, 0, 0, 0, 0, 0]
  jxs := [1, 16, 31, 33, 35, 37, 39, 0, 0, 48, 49, 0, 0, 0, 0, 0, 0, 0, 0, 0, 0, 0, 0, 0, 0, 0, 0, 0, 0, 0, 0, 0]
  xss :=
    [1, 2, 3, 20, 21, 22, 5, 6, 7, 10, -1, 12, 0, 0, 0] ++                   -- energies, total, absorption, elastic, heating
    [-7, 2, 0, 2, 1, 3, 2, 5 / 2, 2, 0, 2, 1, 3, 3, 4] ++                    -- prompt and total nu
    [18, 102] ++ [200, 5] ++ [19, 0] ++ [1, 6] ++                            -- MTs, Q values, neutrons, places
    [1, 3, 8, 9, 10] ++ [2, 2, 5, -1] ++                                     -- cross sections
    [1] ++ [0, 4, 10, 0, 2, 1, 3, 1, 1] ++ [0, 2, 1, 3, 16, 24] ++           -- the spectrum's place, its law, its incident energies
    [2, 2, 0, 2, 1 / 2, 1 / 2, 0, 1] ++ [2, 2, 0, 4, 1 / 4, 1 / 4, 0, 1]     -- spectra

def content : Content ℚ where
  energies := [1, 2, 3]
  total := [20, 21, 22]
  absorption := [5, 6, 7]
  elastic := [10, -1, 12]
  reactions := [⟨18, 1, [8, 9, 10], 1⟩, ⟨102, 2, [5, -1], 6⟩]

theorem holds : Holds table content where
  numEnergies := by decide +kernel
  numReactions := by decide +kernel
  positive := by decide +kernel
  main := ⟨1, by decide +kernel, at_of_take (by decide) (by decide +kernel)⟩
  lengths := by decide +kernel
  lists := ⟨31, 37, 39, by decide +kernel, by decide +kernel, by decide +kernel, at_of_take (by decide) (by decide +kernel),
    at_of_take (by decide) (by decide +kernel), by
      intro r hr
      simp only [content, List.mem_cons, List.not_mem_nil, or_false] at hr
      rcases hr with rfl | rfl
      · exact ⟨by decide, by decide, at_of_take (by decide) (by decide +kernel), by decide, by decide⟩
      · exact ⟨by decide, by decide, at_of_take (by decide) (by decide +kernel), by decide, by decide⟩⟩

def loaded : Ace.Table ℚ := ⟨["294K".toList],
  [(1, ⟨[("294K".toList, .linlin [1000000, 2000000, 3000000] [20, 21, 22])], none, none⟩),
   (101, ⟨[("294K".toList, .linlin [1000000, 2000000, 3000000] [5, 6, 7])], none, none⟩),
   (2, ⟨[("294K".toList, .linlin [1000000, 2000000, 3000000] [10, 0, 12])], none, none⟩),
   (18, ⟨[("294K".toList, .linlin [1000000, 2000000, 3000000] [8, 9, 10])],
      some ⟨true, ⟨[1000000, 3000000], [3, 4], [2], [2]⟩⟩,
      some ⟨true, [1000000, 3000000], [⟨[0, 2000000], [1 / 2000000, 1 / 2000000], [0, 1]⟩, ⟨[0, 4000000], [1 / 4000000, 1 / 4000000], [0, 1]⟩]⟩⟩),
   (102, ⟨[("294K".toList, .linlin [2000000, 3000000] [5, 0])], none, none⟩)]⟩

/-- The table of the example is loaded. -/
theorem load_table : load table = .ok loaded := by decide +kernel

end Example
end ASAPy.FromAce
