import Mathlib.Analysis.SpecialFunctions.Pow.Real
import Verif.Py

/-!
# Model of the density of water (ASAPy/data/data.py)

`water_density`, 218-319. Numbers are real. A negative number to the power 0.25 is complex in Python, and `math.sqrt` of a complex number is a
`TypeError`; `math.sqrt` of a negative number is a `ValueError`.
-/

namespace ASAPy.Water

/-- The warnings of lines 248-255 and 276-277. -/
inductive Warn where
  | highPressure
  | negativePressure
  | cold
  | hot
  | boiling
deriving DecidableEq

/-- `math.sqrt`. -/
noncomputable def sqrt (x : ℝ) : Except PyErr ℝ := if x < 0 then .error .valueError else .ok (Real.sqrt x)

/-- `x / y`. -/
noncomputable def div (x y : ℝ) : Except PyErr ℝ := if y = 0 then .error .zeroDivision else .ok (x / y)

/-- `x**k`. -/
noncomputable def pow (x : ℝ) (k : ℤ) : Except PyErr ℝ := if x = 0 ∧ k < 0 then .error .zeroDivision else .ok (x ^ k)

/-- Lines 247-255. -/
noncomputable def warnings (t p : ℝ) : List Warn :=
  (if 100 < p then [.highPressure] else []) ++ (if p < 0 then [.negativePressure] else []) ++ (if t < 273 then [.cold] else []) ++
    (if 623.15 < t then [.hot] else [])

/-- Lines 257-271: the saturation temperature; the numbers are those of `n4`, lines 258-261. -/
noncomputable def tSat (p : ℝ) : Except PyErr ℝ :=
  if p < 0 then .error .typeError
  else do
    let beta := p ^ (0.25 : ℝ)
    let e := beta ^ 2 + (-17.073846940092) * beta + 14.915108613530
    let f := 1167.0521452767 * beta ^ 2 + 12020.824702470 * beta + (-4823.2657361591)
    let g := (-724213.16703206) * beta ^ 2 + (-3232555.0322333) * beta + 405113.40542057
    let s ← sqrt (f ^ 2 - 4 * e * g)
    let d ← div (2 * g) (-f - s)
    let r ← sqrt ((650.17534844798 + d) ^ 2 - 4 * ((-0.23855557567849) + 650.17534844798 * d))
    return 0.5 * (650.17534844798 + d - r)

/-- `zip(n1f, I1f, J1f)`, lines 283-298. -/
noncomputable def coeffs : List (ℝ × ℕ × ℤ) :=
  [(0.14632971213167, 0, -2), (-0.84548187169114, 0, -1), (-3.7563603672040, 0, 0), (3.3855169168385, 0, 1),
   (-0.95791963387872, 0, 2), (0.15772038513228, 0, 3), (-0.16616417199501e-1, 0, 4), (0.81214629983568e-3, 0, 5),
   (0.28319080123804e-3, 1, -9), (-0.60706301565874e-3, 1, -7), (-0.18990068218419e-1, 1, -1), (-0.32529748770505e-1, 1, 0),
   (-0.21841717175414e-1, 1, 1), (-0.52838357969930e-4, 1, 3), (-0.47184321073267e-3, 2, -3), (-0.30001780793026e-3, 2, 0),
   (0.47661393906987e-4, 2, 1), (-0.44141845330846e-5, 2, 3), (-0.72694996297594e-15, 2, 17), (-0.31679644845054e-4, 3, -4),
   (-0.28270797985312e-5, 3, 0), (-0.85205128120103e-9, 3, 6), (-0.22425281908000e-5, 4, -5), (-0.65171222895601e-6, 4, -2),
   (-0.14341729937924e-12, 4, 10), (-0.40516996860117e-6, 5, -8), (-0.12734301741641e-8, 8, -11), (-0.17424871230634e-9, 8, -6),
   (-0.68762131295531e-18, 21, -29), (0.14478307828521e-19, 23, -31), (0.26335781662795e-22, 29, -38), (-0.11947622640071e-22, 30, -39),
   (0.18228094581404e-23, 31, -40), (-0.93537087292458e-25, 32, -41)]

/-- The loop of lines 307-309 from a value of `gamma1_pi` on. -/
noncomputable def gammaLoop (pi tau : ℝ) : List (ℝ × ℕ × ℤ) → ℝ → Except PyErr ℝ
  | [], g => .ok g
  | (n, i, j) :: l, g => do
    let a ← pow (7.1 - pi) ((i : ℤ) - 1)
    let b ← pow (tau - 1.222) j
    gammaLoop pi tau l (g - n * i * a * b)

/-- `water_density`, lines 218-319: the warnings and the result. -/
noncomputable def waterDensity (t p : ℝ) : List Warn × Except PyErr ℝ :=
  match tSat p with
  | .error e => (warnings t p, .error e)
  | .ok ts =>
    (warnings t p ++ (if ts + 0.2 < t then [.boiling] else []), do
      let pi := p / 16.53
      let tau ← div 1386 t
      let g ← gammaLoop pi tau coeffs 0
      let c ← div (p / 0.461526) t
      let r ← div c pi
      div r g)

end ASAPy.Water
