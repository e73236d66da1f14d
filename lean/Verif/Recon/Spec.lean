import Verif.Recon.Model
import Mathlib.Data.Real.Sign

/-!
# What resonance reconstruction should compute

Hard-sphere functions by the recursions of ENDF-102 (appendix D), for every l; the angular momenta a neutron and a target can form; the Breit-Wigner formulas D.1-D.9;
data for which the formulas make sense.
-/

namespace ASAPy.Recon.Spec

noncomputable section

/-- Penetration and shift of the hard sphere: `P 0 = ρ`, `S 0 = 0`, and the recursion from `l` to `l + 1`. -/
def outer : ℕ → ℝ → ℝ × ℝ
  | 0, ρ => (ρ, 0)
  | l + 1, ρ =>
    let (P, S) := outer l ρ
    (ρ ^ 2 * P / ((l + 1 - S) ^ 2 + P ^ 2), ρ ^ 2 * (l + 1 - S) / ((l + 1 - S) ^ 2 + P ^ 2) - (l + 1))

/-- Phase shift of the hard sphere: `φ 0 = ρ` and the recursion. -/
def phase : ℕ → ℝ → ℝ
  | 0, ρ => ρ
  | l + 1, ρ => phase l ρ - Real.arctan ((outer l ρ).1 / (l + 1 - (outer l ρ).2))

/-- The value of a dict of radii at an energy. -/
def radius (d : ℤ → Option (ℝ → ℝ)) (l : ℤ) (E : ℝ) : ℝ := ((d l).getD 0) E

/-- Penetration and shift in the range, at an energy. -/
def pen (b : Base) (l : ℤ) (E : ℝ) : ℝ := (outer l.toNat (waveNumber b.awr E * radius b.channel l E)).1
def shift (b : Base) (l : ℤ) (E : ℝ) : ℝ := (outer l.toNat (waveNumber b.awr E * radius b.channel l E)).2

/-- Phase shift in the range, at an energy. -/
def phi (b : Base) (l : ℤ) (E : ℝ) : ℝ := phase l.toNat (waveNumber b.awr E * radius b.scattering l E)

/-- J can be formed from l and one of the channel spins I - 1/2 (its absolute value) and I + 1/2. -/
def Allowed (I : ℝ) (l : ℤ) (J : ℝ) : Prop :=
  ∃ s : ℝ, (s = |I - 1 / 2| ∨ s = I + 1 / 2) ∧ ∃ n : ℕ, J = |l - s| + n ∧ J ≤ l + s

/-- Statistical factor. -/
def weight (I J : ℝ) : ℝ := (2 * J + 1) / (2 * (2 * I + 1))

/-- Widths of a resonance at an energy: the neutron width varies as the penetration, the others are constant. -/
def neutronWidth (b : Base) (r : BwRow) (E : ℝ) : ℝ := r.gn * (pen b r.l E / pen b r.l r.energy)
def totalWidth (b : Base) (r : BwRow) (E : ℝ) : ℝ := neutronWidth b r E + r.gg + r.gf

/-- Energy of the peak. -/
def peak (b : Base) (r : BwRow) (E : ℝ) : ℝ := r.energy + (shift b r.l r.energy - shift b r.l E) / (2 * pen b r.l r.energy) * r.gn

/-- The factor of a resonance in all reactions: `π/k² g Γn / ((E - E')² + Γ²/4)`. -/
def line (b : Base) (r : BwRow) (E : ℝ) : ℝ :=
  Real.pi / waveNumber b.awr E ^ 2 * weight b.spin r.j * (neutronWidth b r E / ((E - peak b r E) ^ 2 + totalWidth b r E ^ 2 / 4))

/-- Potential scattering of an l. -/
def potential (b : Base) (E : ℝ) (l : ℤ) : ℝ := 4 * Real.pi / waveNumber b.awr E ^ 2 * ((2 * l + 1) * Real.sin (phi b l E) ^ 2)

/-- Elastic scattering of one level, with its interference with potential scattering (D.2). -/
def elasticLevel (b : Base) (E : ℝ) (r : BwRow) : ℝ :=
  line b r E * (neutronWidth b r E * Real.cos (2 * phi b r.l E) - 2 * (r.gg + r.gf) * Real.sin (phi b r.l E) ^ 2 + 2 * (E - peak b r E) * Real.sin (2 * phi b r.l E))

/-- The distinct values of l of the rows. -/
def lvalues (rows : List ℤ) : Finset ℤ := rows.toFinset

/-- A radius is given for l and is positive at an energy. -/
def HasRadius (d : ℤ → Option (ℝ → ℝ)) (l : ℤ) (E : ℝ) : Prop := ∃ f, d l = some f ∧ 0 < f E

/-- A row with an energy that is not zero, an l the formulas are there for, and radii. -/
def RowOk (b : Base) (E : ℝ) (l : ℤ) (e : ℝ) : Prop :=
  0 ≤ l ∧ l ≤ 4 ∧ e ≠ 0 ∧ HasRadius b.channel l E ∧ HasRadius b.channel l e ∧ (b.scattering l).isSome

/-- A target of half-integer spin and positive mass, at a positive energy. -/
def TargetOk (b : Base) (E : ℝ) : Prop := (∃ n : ℕ, b.spin = n / 2) ∧ 0 < b.awr ∧ 0 < E

/-- Breit-Wigner data for which the formulas make sense at an energy: widths not negative and not all zero, no competitive width, a possible J. -/
def BwOk (d : Bw) (E : ℝ) : Prop :=
  TargetOk d.toBase E ∧ ∀ r ∈ d.rows, RowOk d.toBase E r.l r.energy ∧ 0 ≤ r.gn ∧ 0 ≤ r.gg ∧ 0 ≤ r.gf ∧ 0 < r.gn + r.gg + r.gf ∧ r.gx ≤ 0 ∧ Allowed d.spin r.l r.j

/-- At most one resonance for each l and J. -/
def OnePerChannel (d : Bw) : Prop := d.rows.Pairwise fun a b => ¬(a.l = b.l ∧ a.j = b.j)

end
end ASAPy.Recon.Spec

namespace ASAPy.Recon.Spec

/-- Reich-Moore data for which the formulas make sense at an energy: widths of neutrons and gammas not negative, and no pole at the energy. -/
def RmOk (d : Rm) (E : ℝ) : Prop :=
  TargetOk d.toBase E ∧ ∀ r ∈ d.rows, RowOk d.toBase E r.l r.energy ∧ 0 ≤ r.gn ∧ 0 ≤ r.gg ∧ (0 < r.gg ∨ r.energy ≠ E)

/-- The limit of unitarity: `π/k² Σ (2l + 1)`. -/
noncomputable def unitarity (d : Rm) (E : ℝ) : ℝ := Real.pi / waveNumber d.awr E ^ 2 * ∑ l ∈ lvalues (d.rows.map (·.l)), (2 * (l : ℝ) + 1)

/-- No phase shift is in the range where the code uses a series. -/
def NotSmall (d : Rm) (E : ℝ) : Prop := ∀ r ∈ d.rows, 3e-4 ≤ |phaseshift r.l (waveNumber d.awr E * radius d.scattering r.l E)|

end ASAPy.Recon.Spec

/-! ### Collision matrix of Reich-Moore (ENDF-102, D.1.3) -/

namespace ASAPy.Recon.Spec

noncomputable section

/-- The channels of an l: pairs of channel spin and total angular momentum. -/
def Channels (I : ℝ) (l : ℤ) : Set (ℝ × ℝ) := {c | (c.1 = |I - 1 / 2| ∨ c.1 = I + 1 / 2) ∧ ∃ n : ℕ, c.2 = |l - c.1| + n ∧ c.2 ≤ l + c.1}

/-- A resonance feeds a channel of its l and J. For l > 0 the sign of J tells the channel spin: the lower one for J < 0, the upper one for J > 0. -/
def Feeds (I : ℝ) (l : ℤ) (c : ℝ × ℝ) (r : RmRow) : Prop :=
  r.l = l ∧ |r.j| = c.2 ∧ (0 < l → (r.j < 0 → c.1 = |I - 1 / 2|) ∧ (0 < r.j → c.1 = I + 1 / 2))

/-- Amplitudes of a resonance at an energy: neutrons and two fission channels, whose widths carry the sign of the amplitude. -/
def amplitude (b : Base) (r : RmRow) (E : ℝ) : Fin 3 → ℝ :=
  ![√(r.gn * (pen b r.l E / pen b r.l r.energy)), Real.sign r.gfa * √|r.gfa|, Real.sign r.gfb * √|r.gfb|]

open Classical in
/-- `K = i/2 Σ a aᵀ / (E_r - E - i Γγ/2)`, over the resonances that feed the channel. -/
def kMatrix (d : Rm) (E : ℝ) (l : ℤ) (c : ℝ × ℝ) : Matrix (Fin 3) (Fin 3) ℂ := fun i k =>
  (d.rows.map fun r => if Feeds d.spin l c r then Complex.I / 2 * (amplitude d.toBase r E i * amplitude d.toBase r E k) / (r.energy - E - Complex.I * r.gg / 2) else 0).sum

/-- The collision matrix `U = Ω (2 (1 - K)⁻¹ - 1) Ω`; only neutrons have a phase. -/
def collision (φ : ℝ) (K : Matrix (Fin 3) (Fin 3) ℂ) : Matrix (Fin 3) (Fin 3) ℂ := fun i k =>
  let ph : Fin 3 → ℝ := ![φ, 0, 0]
  Complex.exp (-(Complex.I * (ph i + ph k))) * (2 * (1 - K)⁻¹ i k - (1 : Matrix (Fin 3) (Fin 3) ℂ) i k)

end
end ASAPy.Recon.Spec

/-! ### Multi-level Breit-Wigner (ENDF-102, D.1.2) -/

namespace ASAPy.Recon.Spec

noncomputable section

/-- `x = 2 (E - E') / Γ` of a resonance. -/
def detuning (b : Base) (r : BwRow) (E : ℝ) : ℝ := 2 * (E - peak b r E) / totalWidth b r E

/-- `Γn/Γ · 2/(1 + x²)` of a resonance. -/
def strength (b : Base) (r : BwRow) (E : ℝ) : ℝ := neutronWidth b r E / totalWidth b r E * (2 / (1 + detuning b r E ^ 2))

open Classical in
/-- A sum over the resonances of an l and J. -/
def sumOver (d : Bw) (l : ℤ) (J : ℝ) (f : BwRow → ℝ) : ℝ := (d.rows.map fun r => if r.l = l ∧ r.j = J then f r else 0).sum

/-- Elastic scattering of an l: for each J that l and the channel spins can form, with the resonances of this J interfering; and potential scattering for the J that are
formed twice. -/
def multiLevel (d : Bw) (E : ℝ) (l : ℤ) : ℝ :=
  let φ := phi d.toBase l E
  (∑ᶠ J ∈ {J | Allowed d.spin l J}, weight d.spin J *
    ((1 - Real.cos (2 * φ) - sumOver d l J fun r => strength d.toBase r E) ^ 2 + (Real.sin (2 * φ) + sumOver d l J fun r => strength d.toBase r E * detuning d.toBase r E) ^ 2)) +
  2 * (2 * l + 1 - ∑ᶠ J ∈ {J | Allowed d.spin l J}, weight d.spin J) * (1 - Real.cos (2 * φ))

end
end ASAPy.Recon.Spec
