import Verif.Tab1D.Model
import Mathlib.Analysis.SpecialFunctions.Log.Basic

/-! The reals' own exponential and logarithm. -/

namespace ASAPy

noncomputable instance : ExpLog ℝ := ⟨Real.exp, Real.log⟩

theorem realExp (x : ℝ) : ExpLog.exp x = Real.exp x := rfl
theorem realLog (x : ℝ) : ExpLog.log x = Real.log x := rfl

end ASAPy
