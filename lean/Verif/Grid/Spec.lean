import Verif.Grid.Model

/-! # Specification: linear interpolation -/

namespace ASAPy.Grid

variable {K : Type} [Field K] [LinearOrder K]

/-- The value at `x` of the straight line through `(a, fa)` and `(b, fb)`. -/
def chord (a fa b fb x : K) : K := ((b - x) * fa + (x - a) * fb) / (b - a)

/-- The middle of the interval is reproduced by linear interpolation within the relative tolerance. -/
def MidOk (tol : K) (f : K → K) (a b : K) : Prop := |chord a (f a) b (f b) ((a + b) / 2) - f ((a + b) / 2)| ≤ tol * |f ((a + b) / 2)|

end ASAPy.Grid
