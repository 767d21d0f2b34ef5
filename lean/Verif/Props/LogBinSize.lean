import Mathlib.Analysis.SpecialFunctions.Log.Basic
import Mathlib.Analysis.Complex.ExponentialBounds
import Verif.Model.Lsh
/-
The constant `logBinSize` of lsh/lsh.go:17 over the real numbers.
-/
namespace Goslide.Props

/-- C10. `int(math.Floor(math.Log(8)))` is 2 in exact arithmetic: the code uses the natural
logarithm where the base-2 logarithm (which is 3) was meant. `math.Log(8)` is about 2.0794, far
from an integer, so float rounding does not change the floor. -/
theorem C10_logBinSize : ⌊Real.log (Lsh.binSize : ℝ)⌋ = (Lsh.logBinSize : ℤ) := by
  have e : ((Lsh.binSize : ℕ) : ℝ) = 2 ^ 3 := by norm_num [Lsh.binSize]
  rw [e, Real.log_pow, Int.floor_eq_iff]
  have h1 := Real.log_two_gt_d9
  have h2 := Real.log_two_lt_d9
  constructor
  · norm_num [Lsh.logBinSize]; linarith
  · norm_num [Lsh.logBinSize]; linarith

/-- The distance of `log 8` from an integer is above 0.07. -/
theorem C10_log8_margin : 2 + 0.07 < Real.log (Lsh.binSize : ℝ) ∧ Real.log (Lsh.binSize : ℝ) < 3 - 0.9 := by
  have e : ((Lsh.binSize : ℕ) : ℝ) = 2 ^ 3 := by norm_num [Lsh.binSize]
  rw [e, Real.log_pow]
  have h1 := Real.log_two_gt_d9
  have h2 := Real.log_two_lt_d9
  constructor <;> norm_num <;> linarith

end Goslide.Props
