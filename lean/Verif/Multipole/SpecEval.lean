import Verif.Multipole.Model
import Verif.Multipole.Spec

/-! # Specification of windowed multipole cross sections -/

namespace ASAPy.Multipole

/-- Data as described in lines 129-171: the arrays fit together, every window names a range of poles, counted from 1. -/
structure Wmp.Valid (m : Wmp) : Prop where
  spacing : 0 < m.spacing
  awr : 0 < m.sqrtAWR
  emin : 0 ≤ m.eMin
  cols : m.cols = 3 ∨ m.cols = 4
  data : ∀ r ∈ m.data, r.length = m.cols
  terms : 3 ≤ m.terms
  channels : m.channels = 2 ∨ m.channels = 3
  fission : m.cols = 4 → m.channels = 3
  broaden : m.broaden.length = m.windows.length
  curvefit : m.curvefit.length = m.windows.length
  shape : ∀ c ∈ m.curvefit, c.length = m.terms ∧ ∀ t ∈ c, t.length = m.channels
  windows : ∀ w ∈ m.windows, ∃ a b : ℕ, w = [(a : Int), (b : Int)] ∧ 1 ≤ a ∧ b ≤ m.data.length

/-- The energy is in the window `i`, lines 144-147. -/
def Wmp.InWindow (m : Wmp) (i : ℕ) (E : ℝ) : Prop :=
  (Real.sqrt m.eMin + i * m.spacing) ^ 2 ≤ E ∧ E < (Real.sqrt m.eMin + (i + 1) * m.spacing) ^ 2

/-- The rows of the poles of window `i`. -/
def Wmp.poles (m : Wmp) (i : ℕ) : List (List ℂ) :=
  match m.windows.getD i [] with
  | [a, b] => (m.data.take b.toNat).drop (a - 1).toNat
  | _ => []

/-- The polynomial of window `i` for a channel: `a + b u + c u² + …`, lines 163-169. -/
noncomputable def Wmp.fit (m : Wmp) (i c : ℕ) (u : ℝ) : ℝ :=
  ∑ k ∈ Finset.range m.terms, ((m.curvefit.getD i []).getD k []).getD c 0 * u ^ k

/-- The resonances of window `i` for a channel. -/
noncomputable def Wmp.resonances (m : Wmp) (i c : ℕ) (u : ℝ) : ℝ :=
  ((m.poles i).map fun r => resonance (r.getD 0 0) (r.getD (c + 1) 0) u).sum

/-- Scattering, absorption, fission. -/
def Sigma.get (x : Sigma) : ℕ → ℝ
  | 0 => x.s
  | 1 => x.a
  | _ => x.f

/-- The channels for which there are data; the fission cross section of the others is zero. -/
def Wmp.HasChannel (m : Wmp) (c : ℕ) : Prop := c < 2 ∨ (c = 2 ∧ m.fissionable = true)

/-- All poles of the window are off the real axis. -/
def Wmp.OffAxis (m : Wmp) (i : ℕ) : Prop := ∀ r ∈ m.poles i, (r.getD 0 0).im ≠ 0

/-- The polynomial part at a temperature, times the energy: as it is, or broadened by the free gas kernel, or beyond six widths by the whole Maxwell distribution. -/
noncomputable def Wmp.fitAt (m : Wmp) (i c : ℕ) (E d : ℝ) : ℝ :=
  if m.broaden.getD i false = false then m.fit i c (Real.sqrt E)
  else if Real.sqrt E * d ≤ 6 then freeGas d (Real.sqrt E) (m.fit i c)
  else smeared d (Real.sqrt E) (m.fit i c)

end ASAPy.Multipole
