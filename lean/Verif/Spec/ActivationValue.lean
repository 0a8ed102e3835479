import Verif.Spec.Activation
import Mathlib.Analysis.SpecialFunctions.Sigmoid
import Mathlib.Probability.Distributions.Gaussian.Real
import Mathlib.Data.Sign.Defs

/-! # The functions the activation functions are named after -/

namespace Verif.Spec
open Activation

/-- Where the function is defined. -/
def definedOn : Fn → Set ℝ
  | .logit => Set.Ioo 0 1
  | .sinc | .csch | .coth | .arcsch => {z | z ≠ 0}
  | .arcosh => Set.Ici 1
  | .artanh => Set.Ioo (-1) 1
  | .arsech => Set.Ioo 0 1
  | .arcoth => {z | 1 < |z|}
  | _ => Set.univ

/-- `v` is the value of the named function at `z`; the inverse functions are described by the functions they invert. `gelu` is the usual
approximation by a sigmoid, not the product of `z` and the normal distribution function. Softmax is not a function of one number. -/
def HasValue : Fn → ℝ → ℝ → Prop
  | .linear, z, v => v = z
  | .sigmoid, z, v => v = Real.sigmoid z
  | .swish, z, v => v = z * Real.sigmoid z
  | .mish, z, v => ∃ s, Real.exp s = 1 + Real.exp z ∧ v = z * Real.tanh s
  | .sinc, z, v => v * z = Real.sin z
  | .softplus, z, v => Real.exp v = 1 + Real.exp z
  | .softsign, z, v => (0 ≤ z → v * (1 + z) = z) ∧ (z < 0 → v * (1 - z) = z)
  | .cloglog, z, v => v < 1 ∧ Real.log (-Real.log (1 - v)) = z
  | .logit, z, v => Real.sigmoid v = z
  | .gaussian_cdf, z, v => v = (ProbabilityTheory.gaussianReal 0 1).real (Set.Iic z)
  | .relu, z, v => (0 ≤ z → v = z) ∧ (z < 0 → v = 0)
  | .gelu, z, v => v = z * Real.sigmoid (2 * Real.sqrt (2 / Real.pi) * (z + 0.044715 * z ^ 3))
  | .sign, z, v => v = (SignType.sign z : ℝ)
  | .unit_step, z, v => (0 ≤ z → v = 1) ∧ (z < 0 → v = 0)
  | .sinh, z, v => v = Real.sinh z
  | .cosh, z, v => v = Real.cosh z
  | .tanh, z, v => v = Real.tanh z
  | .csch, z, v => v * Real.sinh z = 1
  | .sech, z, v => v * Real.cosh z = 1
  | .coth, z, v => v * Real.tanh z = 1
  | .arsinh, z, v => Real.sinh v = z
  | .arcosh, z, v => 0 ≤ v ∧ Real.cosh v = z
  | .artanh, z, v => Real.tanh v = z
  | .arcsch, z, v => Real.sinh v = 1 / z
  | .arsech, z, v => 0 ≤ v ∧ Real.cosh v = 1 / z
  | .arcoth, z, v => Real.tanh v = 1 / z
  | .softmax, _, _ => False
  | .adj_softmax, _, _ => False

end Verif.Spec
