import Verif.Hdf5.Round2
import Mathlib.Algebra.Order.Ring.Rat
import Mathlib.Data.Rat.Defs

/-!
# C121: distributions survive export to and import from HDF5
-/

namespace ASAPy.Hdf5

variable {K : Type} [Field K] [LinearOrder K] [IsStrictOrderedRing K]

/-- C121: every distribution of a form that can be stored is written and comes back, the uniform ones as histograms of the same density. All kinds of distributions, any
number of incoming energies, of outgoing energies and of cosines. -/
theorem C121_distributions_partial {d : Dist K} (hd : d.Stored) : ∃ g, distTo Grp.empty d = .ok g ∧ distFrom g = .ok (some d.back) :=
  let ⟨g, h1, _, h2⟩ := dist_round Grp.empty_free hd
  ⟨g, h1, h2⟩

/-- The density of a uniform distribution or of a table with constant values between points. -/
def density (v : K) : Uni K → Option K
  | .uniform a b => if a ≤ v ∧ v < b then some (1 / (b - a)) else none
  | .tabular .histogram x p _ => ((x.zip (x.drop 1)).zip p).findSome? fun e => if e.1.1 ≤ v ∧ v < e.1.2 then some e.2 else none
  | _ => none

omit [IsStrictOrderedRing K] in
/-- What a uniform distribution is stored as has its density. -/
theorem C121_uniform (a b v : K) : density v (Uni.uniform a b).back = density v (.uniform a b) := by
  simp only [Uni.back, density]
  split <;> simp_all

/-- An example of each kind: lines and a continuum; Kalbach-Mann with lines; correlated with isotropic cosines. -/
def exHead : Head ℚ := ⟨[2], [2], [1, 2]⟩
def exMix : Uni ℚ := .mixture [1 / 4, 3 / 4] [1, 2] [1 / 8, 1 / 8] [1 / 8, 1 / 4] .histogram [3, 4, 6] [1 / 4, 1 / 4, 0] [1 / 4, 1 / 2, 1]
def exTab : Uni ℚ := .tabular .linlin [0, 2] [0, 1] [0, 1]
def exLines : Uni ℚ := .discrete [1, 2] [1 / 2, 1 / 2] [1 / 2, 1]

theorem exMix_out : exMix.Out false := ⟨⟨by decide +kernel, rfl, rfl⟩, by decide +kernel, ⟨by decide +kernel, rfl, rfl⟩, Or.inl rfl, fun _ => by decide +kernel, 1 / 4, rfl, by norm_num, by norm_num, by norm_num⟩
theorem exTab_out (b : Bool) : exTab.Out b := ⟨⟨by decide +kernel, rfl, rfl⟩, Or.inr rfl, fun _ => by decide +kernel⟩
theorem exLines_out (b : Bool) : exLines.Out b := ⟨⟨by decide +kernel, rfl, rfl⟩, by decide +kernel⟩

example : (Dist.uncorrelated (some ⟨[1, 2], [.uniform (-1) 1, exTab]⟩) (some (.continuous exHead [exMix, exLines]))).Stored := by
  refine ⟨?_, ?_⟩
  · rintro a ⟨⟩
    refine ⟨rfl, ?_⟩
    intro d hd
    rcases List.mem_cons.1 hd with rfl | hd
    · exact (by norm_num : (-1 : ℚ) < 1)
    · rcases List.mem_cons.1 hd with rfl | hd
      · exact exTab_out false
      · simp at hd
  · rintro e ⟨⟩
    refine ⟨⟨rfl, rfl⟩, ?_⟩
    intro d hd
    rcases List.mem_cons.1 hd with rfl | hd
    · exact exMix_out
    · rcases List.mem_cons.1 hd with rfl | hd
      · exact exLines_out false
      · simp at hd

example : (Dist.kalbach exHead [exMix, exTab] [.linlin [1, 2, 3, 4, 6] [0, 0, 1, 1, 1], .linlin [0, 2] [1, 1]] [.linlin [1, 2, 3, 4, 6] [0, 0, 2, 2, 2], .linlin [0, 2] [3, 4]]).Stored := by
  refine ⟨⟨rfl, rfl⟩, ?_, rfl, rfl, ?_, ?_⟩
  · intro d hd
    rcases List.mem_cons.1 hd with rfl | hd
    · exact exMix_out
    · rcases List.mem_cons.1 hd with rfl | hd
      · exact exTab_out false
      · simp at hd
  · intro i hi hr
    match i, hi with
    | 0, _ => exact ⟨_, rfl, rfl⟩
    | 1, _ => exact ⟨_, rfl, rfl⟩
  · intro i hi hr
    match i, hi with
    | 0, _ => exact ⟨_, rfl, rfl⟩
    | 1, _ => exact ⟨_, rfl, rfl⟩

example : (Dist.correlated exHead [exTab, exLines] [[.uniform (-1) 1, exTab], [exLines, .uniform 0 1]]).Stored := by
  refine ⟨⟨rfl, rfl⟩, ?_, rfl, ?_, ?_⟩
  · intro d hd
    rcases List.mem_cons.1 hd with rfl | hd
    · exact ⟨exTab_out true, fun _ _ _ _ _ _ _ _ h => by cases h⟩
    · rcases List.mem_cons.1 hd with rfl | hd
      · exact ⟨exLines_out true, fun _ _ _ _ _ _ _ _ h => by cases h⟩
      · simp at hd
  · intro i hi hr
    match i, hi with
    | 0, _ => rfl
    | 1, _ => rfl
  · intro l hl d hd
    have h1 : (Uni.uniform (-1 : ℚ) 1).CosineOrLines := by show (-1 : ℚ) < 1; norm_num
    have h2 : (Uni.uniform (0 : ℚ) 1).CosineOrLines := by show (0 : ℚ) < 1; norm_num
    have h3 : exTab.CosineOrLines := exTab_out true
    have h4 : exLines.CosineOrLines := exLines_out true
    simp only [List.mem_cons, List.not_mem_nil, or_false] at hl
    rcases hl with rfl | rfl <;> simp only [List.mem_cons, List.not_mem_nil, or_false] at hd <;> rcases hd with rfl | rfl <;> assumption

/-- A Kalbach-Mann distribution with a negative density, which is read from ACE files without complaint, is written but not read. -/
theorem C121_negative_refuted : ∃ g, distTo Grp.empty (Dist.kalbach ⟨[1], [2], [1]⟩ [.tabular .linlin [0, 1] [-1, 3] [0, 1]] [.linlin [0, 1] [0, 0]] [.linlin [0, 1] [0, 0]] : Dist ℚ) = .ok g ∧
    distFrom g = .error .valueError := ⟨_, rfl, rfl⟩

/-- Lines and a continuum in a correlated distribution cannot be written. -/
theorem C121_lines_refuted : distTo Grp.empty (Dist.correlated ⟨[1], [2], [1]⟩ [exMix] [[exTab, exTab, exTab, exTab, exTab]]) = .error .exception := rfl

/-- Logarithmic interpolation comes back as linear. -/
theorem C121_scheme_refuted : ∃ g, distTo Grp.empty (Dist.uncorrelated none (some (.continuous ⟨[1], [2], [1]⟩ [.tabular .loglog [1, 2] [1, 1] [0, 1]])) : Dist ℚ) = .ok g ∧
    distFrom g = .ok (some (.uncorrelated none (some (.continuous ⟨[1], [2], [1]⟩ [.tabular .linlin [1, 2] [1, 1] [0, 1]])))) := ⟨_, rfl, rfl⟩

omit [IsStrictOrderedRing K] in
/-- A Madland-Nix spectrum is written under another name than it is read. -/
theorem C121_madland_nix_refuted (l h : K) (t : Tab1D K) (ht : t.x.length = t.y.length) :
    ∃ g, distTo Grp.empty (Dist.uncorrelated none (some (.madlandNix l h t))) = .ok g ∧ distFrom g = .error .keyError := by
  refine ⟨_, by simp only [distTo, energyTo, tabTo_ok ht, ok_bind]; rw [add_ok rfl]; simp only [ok_bind]; rw [add_ok rfl], ?_⟩
  simp [distFrom, energyFrom, Grp.attr, Grp.empty, Dict.set, getAttr, Dict.get?, Val.toStr, Val.toNum, Grp.has, Grp.group, Grp.node, Grp.dset]

end ASAPy.Hdf5
