import Verif.Elastic0K.Model
import Verif.Grid.Spec

/-!
# Specification: what a table of a cross section at 0 K is to be

Only ranges, the model's data types and the specification of grids are used here.
-/

namespace ASAPy.Elastic0K
open ASAPy.Endf (Line)

/-- A range with a list of resonances: its limits, and the energy and total width of each. -/
inductive HasPeaks : Res.Range → ℝ → ℝ → List (ℝ × ℝ) → Prop
  | bw (r : Res.Bw) : HasPeaks (.bw r) r.base.emin r.base.emax (r.rows.map fun p => ((p.energy : ℝ), (p.gt : ℝ)))
  | rm (r : Res.Rm) : HasPeaks (.rm r) r.base.emin r.base.emax
      (r.rows.map fun p => ((p.energy : ℝ), (p.gn : ℝ) + p.gg + |(p.gfa : ℝ)| + |(p.gfb : ℝ)|))

/-- The `i`-th of the multiples of the width: from a thousandth to a thousand, ten in a decade. -/
noncomputable def step (i : Nat) : ℝ := (10 : ℝ) ^ ((i : ℝ) / 10 - 3)

/-- The `i`-th of a thousand energies from `a` to `b`, in equal ratios. -/
noncomputable def logPoint (a b : ℝ) (i : Nat) : ℝ := a * (b / a) ^ ((i : ℝ) / 999)

/-- The resonances whose energy is inside the range. -/
noncomputable def inside (a b : ℝ) (ps : List (ℝ × ℝ)) : List (ℝ × ℝ) := ps.filter fun p => decide (a < p.1 ∧ p.1 < b)

/-- The lower limit for the points of a resonance at `e`, listed after the resonances `pre`: the middle between it and the one before, or the lower limit of the range. -/
noncomputable def lower (a : ℝ) (pre : List (ℝ × ℝ)) (e : ℝ) : ℝ :=
  match pre.getLast? with
  | none => a
  | some q => (q.1 + e) / 2

/-- The upper limit, likewise. -/
noncomputable def upper (b : ℝ) (post : List (ℝ × ℝ)) (e : ℝ) : ℝ :=
  match post.head? with
  | none => b
  | some q => (e + q.1) / 2

/-- `e` is a point for the resonance `p` between these limits: below it by one of the 61 multiples of the width, or above it by one of all but the smallest. -/
def PointOf (p : ℝ × ℝ) (lo hi e : ℝ) : Prop :=
  (∃ i < 61, e = p.1 - p.2 * step i ∧ lo < e) ∨ ∃ i, 1 ≤ i ∧ i < 61 ∧ e = p.1 + p.2 * step i ∧ e < hi

/-- `e` is a point for one of the resonances inside the range. -/
def NearPeak (a b : ℝ) (ps : List (ℝ × ℝ)) (e : ℝ) : Prop :=
  ∃ pre p post, inside a b ps = pre ++ p :: post ∧ PointOf p (lower a pre p.1) (upper b post p.1) e

/-- A table of `f` from `a` to `b`: its points, with the values of `f`, are in increasing order. They are taken from finer points, among which are all of `es`. Linear
interpolation between neighbours is within a thousandth of `f` at all finer points and, between neighbouring finer points, in the middle. -/
structure TableOf (f : ℝ → ℝ) (a b : ℝ) (es : ℝ → Prop) (pts : List (ℝ × ℝ)) : Prop where
  increasing : (pts.map Prod.fst).Pairwise (· < ·)
  values : ∀ p ∈ pts, p.2 = f p.1
  first : (pts.map Prod.fst).head? = some a
  last : (pts.map Prod.fst).getLast? = some b
  fine : ∃ fine : List ℝ, fine.Pairwise (· < ·) ∧ (∀ e, es e → e ∈ fine) ∧ (pts.map Prod.fst).Sublist fine ∧
    (∀ pre c d post, fine = pre ++ c :: d :: post → Grid.MidOk (1 / 1000) f c d) ∧
    ∀ e ∈ fine, e ∉ pts.map Prod.fst → ∃ pre c d post, pts = pre ++ c :: d :: post ∧ c.1 < e ∧ e < d.1 ∧
      |Grid.chord c.1 c.2 d.1 d.2 e - f e| ≤ 1 / 1000 * |f e|

/-- The cross section of a reaction at a temperature. -/
def Nuclide.xs (n : Nuclide) (mt : Int) (t : Line) : Option (Tab1D ℝ) := (Dict.get? n.reactions mt).bind fun d => Dict.get? d t

end ASAPy.Elastic0K
