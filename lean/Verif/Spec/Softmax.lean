import Mathlib.Analysis.SpecialFunctions.Exp
import Mathlib.Data.Matrix.Basic

/-! # Softmax -/

namespace Verif.Spec

/-- `softmax(v)_i = exp(v_i) / (exp(v_1) + ... + exp(v_n))`. -/
noncomputable def softmax {n : Nat} (v : Fin n → ℝ) : Fin n → ℝ := fun i => Real.exp (v i) / ∑ j, Real.exp (v j)

end Verif.Spec
