import Mathlib.Analysis.SpecialFunctions.Trigonometric.Basic
import Mathlib.Data.Matrix.Mul
import Mathlib.LinearAlgebra.Matrix.ConjTranspose

/-! # The discrete cosine transform -/

namespace Verif.Spec
variable {n : Nat}

/-- The matrix of the orthonormal discrete cosine transform (type II): `cos(π i (2k+1) / (2n))`, scaled by `√(1/n)` in the first row and by
`√(2/n)` in the others. -/
noncomputable def dctMatrix (n : Nat) : Matrix (Fin n) (Fin n) ℝ := fun i k =>
  (if i.val = 0 then Real.sqrt (1 / n) else Real.sqrt (2 / n)) * Real.cos (Real.pi * i.val * (2 * k.val + 1) / (2 * n))

/-- The two-dimensional transform of the image with every cell shifted by −128. -/
noncomputable def dct2 (A : Matrix (Fin n) (Fin n) ℝ) : Matrix (Fin n) (Fin n) ℝ :=
  dctMatrix n * A.map (· - 128) * (dctMatrix n).transpose

end Verif.Spec
