import Verif.Recon.Spec
import Verif.Res.Spec
import Verif.Tab1D.RealExpLog

/-!
# Cross sections of an evaluation

From the numbers of file 2 (`Verif.Res.Spec`) to the formulas (`Verif.Recon.Spec`).
-/

namespace ASAPy.ReconEval.Spec
open ASAPy.Recon ASAPy.Recon.Spec

noncomputable section

/-- A radius of file 2 as a function of energy: a constant; that of equation D.14, `0.123 A^(1/3) + 0.08` with the mass `A` in atomic mass units; a table (`C15`-`C18`). -/
inductive IsRadius : Res.Radius → (ℝ → ℝ) → Prop
  | const {r : ℚ} {f : ℝ → ℝ} (h : ∀ E, f E = r) : IsRadius (.const r) f
  | mass {a : ℚ} {f : ℝ → ℝ} (ha : 0 ≤ a) (h : ∀ E, (f E - 0.08) ^ 3 = 0.123 ^ 3 * (1.00866491588 * a)) : IsRadius (.fromMass a) f
  | table {regions : List (Int × Int)} {points : List (ℚ × ℚ)} {f : ℝ → ℝ} (h : ∀ E, (⟨points.map fun p => (p.1 : ℝ), points.map fun p => (p.2 : ℝ), regions.map (·.1),
      regions.map fun r => r.2.toNat⟩ : Tab1D ℝ).eval E = .ok (f E)) : IsRadius (.table regions points) f

/-- Spin, mass and radii. -/
def SameBase (b : Res.Base) (awri : ℚ) (d : Base) : Prop :=
  d.spin = b.spin ∧ d.awr = awri ∧ (∀ l, Option.Rel IsRadius (Dict.get? b.channel l) (d.channel l)) ∧ ∀ l, Option.Rel IsRadius (Dict.get? b.scattering l) (d.scattering l)

/-- The numbers of a Breit-Wigner range. -/
def SameBw (r : Res.Bw) (d : Bw) : Prop :=
  SameBase r.base r.awri d.toBase ∧ List.Forall₂ (fun (q : Res.BwRow) (p : BwRow) => p.energy = q.energy ∧ p.l = q.l ∧ p.j = q.j ∧ p.gt = q.gt ∧ p.gn = q.gn ∧
    p.gg = q.gg ∧ p.gf = q.gf ∧ p.gx = q.gx) r.rows d.rows

/-- The numbers of a Reich-Moore range. -/
def SameRm (r : Res.Rm) (d : Rm) : Prop :=
  SameBase r.base r.awri d.toBase ∧ List.Forall₂ (fun (q : Res.RmRow) (p : RmRow) => p.energy = q.energy ∧ p.l = q.l ∧ p.j = q.j ∧ p.gn = q.gn ∧
    p.gg = q.gg ∧ p.gfa = q.gfa ∧ p.gfb = q.gfb) r.rows d.rows

/-- Data for which the formulas make sense at an energy. -/
inductive Sound (E : ℝ) : Res.Range → Prop
  | bw {r : Res.Bw} {d : Bw} (h : SameBw r d) (hd : BwOk d E) : Sound E (.bw r)
  | rm {r : Res.Rm} {d : Rm} (h : SameRm r d) (hd : RmOk d E) : Sound E (.rm r)

/-- The three cross sections of a range at an energy: single-level and multi-level Breit-Wigner; Reich-Moore within 5e-14 of the limit of unitarity. -/
inductive Formula (E : ℝ) : Res.Range → Xs → Prop
  | slbw {r : Res.Bw} {d : Bw} {x : Xs} (hm : r.multi = false) (h : SameBw r d)
      (h1 : x.elastic = (∑ l ∈ lvalues (d.rows.map (·.l)), potential d.toBase E l) + (d.rows.map (elasticLevel d.toBase E)).sum)
      (h2 : x.capture = (d.rows.map fun r => line d.toBase r E * r.gg).sum) (h3 : x.fission = (d.rows.map fun r => line d.toBase r E * r.gf).sum) : Formula E (.bw r) x
  | mlbw {r : Res.Bw} {d : Bw} {x : Xs} (hm : r.multi = true) (h : SameBw r d)
      (h1 : x.elastic = Real.pi / waveNumber d.awr E ^ 2 * ∑ l ∈ lvalues (d.rows.map (·.l)), multiLevel d E l)
      (h2 : x.capture = (d.rows.map fun r => line d.toBase r E * r.gg).sum) (h3 : x.fission = (d.rows.map fun r => line d.toBase r E * r.gf).sum) : Formula E (.bw r) x
  | rm {r : Res.Rm} {d : Rm} {x : Xs} (h : SameRm r d)
      (h1 : abs (x.elastic - Real.pi / waveNumber d.awr E ^ 2 * ∑ l ∈ lvalues (d.rows.map (·.l)), ∑ᶠ c ∈ Channels d.spin l, weight d.spin c.2 *
        ‖1 - collision (phi d.toBase l E) (kMatrix d E l c) 0 0‖ ^ 2) ≤ 5e-14 * unitarity d E)
      (h2 : abs (x.capture - Real.pi / waveNumber d.awr E ^ 2 * ∑ l ∈ lvalues (d.rows.map (·.l)), ∑ᶠ c ∈ Channels d.spin l, weight d.spin c.2 *
        (1 - ‖collision (phi d.toBase l E) (kMatrix d E l c) 0 0‖ ^ 2 - ‖collision (phi d.toBase l E) (kMatrix d E l c) 0 1‖ ^ 2 -
          ‖collision (phi d.toBase l E) (kMatrix d E l c) 0 2‖ ^ 2)) ≤ 5e-14 * unitarity d E)
      (h3 : x.fission = Real.pi / waveNumber d.awr E ^ 2 * ∑ l ∈ lvalues (d.rows.map (·.l)), ∑ᶠ c ∈ Channels d.spin l, weight d.spin c.2 *
        (‖collision (phi d.toBase l E) (kMatrix d E l c) 0 1‖ ^ 2 + ‖collision (phi d.toBase l E) (kMatrix d E l c) 0 2‖ ^ 2)) : Formula E (.rm r) x

/-- A resolved range whose limits enclose an energy. -/
inductive Covers (E : ℝ) : Res.Range → Prop
  | bw {r : Res.Bw} : r.base.emin ≤ E → E ≤ r.base.emax → Covers E (.bw r)
  | rm {r : Res.Rm} : r.base.emin ≤ E → E ≤ r.base.emax → Covers E (.rm r)
  | rml {r : Res.Rml} : r.emin ≤ E → E ≤ r.emax → Covers E (.rml r)

open Classical in
/-- The sum of a reaction over the ranges that cover an energy. -/
def covering (rs : List Res.Range) (E : ℝ) (f : Res.Range → ℝ) : ℝ := (rs.map fun r => if Covers E r then f r else 0).sum

/-- A section whose isotopes have these abundances (ABN) and ranges. -/
def Abundances (mass : ℚ) (isos : List (ℚ × List Res.Range)) (ls : List Endf.Line) : Prop :=
  ∃ (l : Endf.Line) (h : Endf.Head) (ils : List (List Endf.Line)) (rest : List Endf.Line), ls = l :: (ils.flatten ++ rest) ∧ Endf.HeadLine h l ∧ h.n1 = isos.length ∧
    List.Forall₂ (fun (i : ℚ × List Res.Range) il => Res.IsotopeRec mass i.2 il ∧ ∃ l c t, il = l :: t ∧ Endf.ContLine c l ∧ c.c2 = i.1) isos ils

/-- The sum over the isotopes, each by its abundance. -/
def weighted (isos : List (ℚ × List Res.Range)) (E : ℝ) (f : Res.Range → ℝ) : ℝ := (isos.map fun i => (i.1 : ℝ) * covering i.2 E f).sum

end
end ASAPy.ReconEval.Spec
