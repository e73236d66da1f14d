import Verif.FromAce.PhotonSum
import Verif.Thermal.Props3
import Verif.Editor.Props

/-! # The temperature of a loaded table (C223) -/

namespace ASAPy.FromAce
open ASAPy.Ace Dec

variable {K : Type} [Field K] [LinearOrder K] [IsStrictOrderedRing K] [FloorRing K]

/-- The temperature of a table in kelvin: the header has it in MeV, and a kelvin is 8.6173303e-5 eV. -/
def kelvin (t : AceData.Table K) : K := t.temperature * 10 ^ 6 / (86173303 / 10 ^ 12)

theorem tempName_kelvin {t : AceData.Table K} (h0 : 0 ≤ t.temperature) :
    ∃ n : Nat, tempName t.temperature = natStr n ++ ['K'] ∧ |kelvin t - (n : K)| ≤ 1 / 2 := by
  have hk : kelvin t = t.temperature * 1000000 / (86173303 / 10 ^ 12) := by unfold kelvin; norm_num
  have hr : 0 ≤ pyRound (t.temperature * 1000000 / (86173303 / 10 ^ 12)) := Thermal.pyRound_nonneg (by positivity)
  have hn := Thermal.pyRound_near (t.temperature * 1000000 / (86173303 / 10 ^ 12))
  refine ⟨(pyRound (t.temperature * 1000000 / (86173303 / 10 ^ 12))).natAbs, ?_, ?_⟩
  · unfold tempName
    simp only
    rw [if_neg (by omega)]
    simp
  · have : ((pyRound (t.temperature * 1000000 / (86173303 / 10 ^ 12))).natAbs : K) =
        ((pyRound (t.temperature * 1000000 / (86173303 / 10 ^ 12)) : Int) : K) := by
      rw [← Int.cast_natCast, Int.natAbs_of_nonneg hr]
    rw [this, hk]
    exact hn

variable [ExpLog K]

/-- **C223.** A loaded table has one temperature, called after the nearest whole number of kelvin; every reaction has its cross section at it and
at no other, and it is the one an editor without a temperature argument opens. -/
theorem C223_kelvin {t : AceData.Table K} {T : Ace.Table K} (h : load t = .ok T) (h0 : 0 ≤ t.temperature) :
    ∃ n : Nat, |kelvin t - (n : K)| ≤ 1 / 2 ∧ T.temperatures = [natStr n ++ ['K']] ∧
      (∀ mt r, (mt, r) ∈ T.reactions → ∃ xs, r.xs = [(natStr n ++ ['K'], xs)]) ∧
      ∃ ed, init T none = .ok ed ∧ ed.temperature = natStr n ++ ['K'] := by
  obtain ⟨n, hn, hk⟩ := tempName_kelvin h0
  obtain ⟨rs, _, rfl⟩ := load_split h
  refine ⟨n, hk, by rw [hn], ?_, ?_⟩
  · intro mt r hr
    obtain ⟨e, _, he⟩ := List.mem_map.mp hr
    simp only [Prod.mk.injEq] at he
    refine ⟨e.2.xs, ?_⟩
    rw [← he.2, ← hn]
    rfl
  · rw [← hn]
    obtain ⟨ed, h1, h2, _⟩ := C14_default_temperature_partial (file := ⟨[tempName t.temperature], rs.map fun e => (e.1, e.2.toReaction (tempName t.temperature))⟩)
      (T := tempName t.temperature) rfl
    exact ⟨ed, h1, h2⟩

/-- **C223.** Loaded tables with the same temperature name differ by at most one kelvin. -/
theorem C223_same {t t' : AceData.Table K} {T T' : Ace.Table K} (h : load t = .ok T) (h' : load t' = .ok T') (h0 : 0 ≤ t.temperature)
    (h0' : 0 ≤ t'.temperature) (hs : T.temperatures = T'.temperatures) : |kelvin t - kelvin t'| ≤ 1 := by
  obtain ⟨n, hk, hT, -⟩ := C223_kelvin h h0
  obtain ⟨n', hk', hT', -⟩ := C223_kelvin h' h0'
  rw [hT, hT'] at hs
  simp only [List.cons.injEq, and_true, List.append_cancel_right_eq] at hs
  rw [← natStr_injective hs] at hk'
  rw [abs_le] at *
  constructor <;> linarith [hk.1, hk.2, hk'.1, hk'.2]

namespace Example
local instance : ExpLog ℚ := ⟨id, id⟩

-- 2.53e-8 MeV are 293.6 K.
example : loaded.temperatures = ["294K".toList] ∧ load table = .ok loaded ∧ 0 ≤ table.temperature := ⟨by decide +kernel, load_table, by decide +kernel⟩
end Example

end ASAPy.FromAce
