import Verif.Scalar
import Mathlib.Analysis.SpecialFunctions.Pow.Real
import Mathlib.Analysis.SpecialFunctions.Log.Base
import Mathlib.MeasureTheory.Integral.IntervalIntegral.Basic

/-! # Exact arithmetic: the real numbers as `real_t` -/

namespace Verif

/-- The error function. -/
noncomputable def erfReal (x : ℝ) : ℝ := 2 / Real.sqrt Real.pi * ∫ t in (0 : ℝ)..x, Real.exp (-t ^ 2)

/-- `Math::log`, `Math::log10`, ... read as the real functions (platform/sfw.h:2230-2330). -/
noncomputable instance : MathFns ℝ where
  log := Real.log
  log10 := Real.logb 10
  exp := Real.exp
  erf := erfReal
  sqrt := Real.sqrt
  sin := Real.sin
  cos := Real.cos
  sinh := Real.sinh
  cosh := Real.cosh
  tanh := Real.tanh
  pow := fun x y => x ^ y
  pi := Real.pi

theorem absC_eq (x : ℝ) : absC x = |x| := by
  unfold absC
  split
  · next h => rw [abs_of_neg h]
  · next h => rw [abs_of_nonneg (not_lt.mp h)]

theorem maxC_eq (x y : ℝ) : maxC x y = max x y := by
  unfold maxC
  split
  · next h => rw [max_eq_left h.le]
  · next h => rw [max_eq_right (not_lt.mp h)]

theorem minC_eq (x y : ℝ) : minC x y = min x y := by
  unfold minC
  split
  · next h => rw [min_eq_left h.le]
  · next h => rw [min_eq_right (not_lt.mp h)]

theorem isEqualApproxS_iff (a b tol : ℝ) : isEqualApproxS a b tol = true ↔ a = b ∨ |a - b| < tol := by
  simp [isEqualApproxS, absC_eq]

end Verif
