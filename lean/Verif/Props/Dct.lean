import Verif.Lemmas.Dct
import Verif.Lemmas.Example
import Mathlib.LinearAlgebra.Matrix.Notation

/-!
# C99: the discrete cosine transform
-/

namespace Verif
open Spec Transforms
variable {n : Nat}

/-- **C99**: `discrete_cosine_transform` of a square image returns a new matrix: the orthonormal two-dimensional cosine transform of the image
with every cell shifted by −128. -/
theorem C99_dct (h : Heap ℝ) (w : h.WF) (a : Nat) (A : Matrix (Fin n) (Fin n) ℝ) (hA : IsMat h a A) (la : h.live (.m a)) :
    ReturnsMat (discrete_cosine_transform (some (.m a))) h (dct2 A) := dct_square w hA la

/-- **C99 (orthonormality)**: the transform matrix is orthogonal. -/
theorem C99_orthogonal : dctMatrix n * (dctMatrix n).transpose = 1 ∧ (dctMatrix n).transpose * dctMatrix n = 1 :=
  ⟨dctMatrix_orthogonal, dctMatrix_orthogonal'⟩

/-- **C99 (no information is lost)**: the image is the inverse transform of the result, shifted back. -/
theorem C99_inverse (A : Matrix (Fin n) (Fin n) ℝ) : ((dctMatrix n).transpose * dct2 A * dctMatrix n).map (· + 128) = A := by
  have : (dctMatrix n).transpose * dct2 A * dctMatrix n = A.map (· - 128) := by
    unfold dct2
    calc (dctMatrix n).transpose * (dctMatrix n * A.map (· - 128) * (dctMatrix n).transpose) * dctMatrix n
        = ((dctMatrix n).transpose * dctMatrix n) * A.map (· - 128) * ((dctMatrix n).transpose * dctMatrix n) := by
          simp only [Matrix.mul_assoc]
      _ = A.map (· - 128) := by rw [dctMatrix_orthogonal', Matrix.one_mul, Matrix.mul_one]
  rw [this]
  ext i j
  simp

/-- **C99 (energy)**: the sum of the squares of the coefficients is the sum of the squares of the shifted cells. -/
theorem C99_energy (A : Matrix (Fin n) (Fin n) ℝ) : ∑ i, ∑ j, dct2 A i j ^ 2 = ∑ i, ∑ j, (A i j - 128) ^ 2 := by
  have key : ∀ B : Matrix (Fin n) (Fin n) ℝ, ∑ i, ∑ j, B i j ^ 2 = (B * B.transpose).trace := by
    intro B
    simp [Matrix.trace, Matrix.mul_apply, sq]
  have : ∑ i, ∑ j, (A i j - 128) ^ 2 = ∑ i, ∑ j, (A.map (· - 128)) i j ^ 2 := rfl
  rw [this, key, key]
  unfold dct2
  rw [Matrix.transpose_mul, Matrix.transpose_mul, Matrix.transpose_transpose]
  calc ((dctMatrix n * A.map (· - 128) * (dctMatrix n).transpose) * (dctMatrix n * ((A.map (· - 128)).transpose * (dctMatrix n).transpose))).trace
      = (dctMatrix n * A.map (· - 128) * ((dctMatrix n).transpose * dctMatrix n) * (A.map (· - 128)).transpose * (dctMatrix n).transpose).trace := by
        simp only [Matrix.mul_assoc]
    _ = (dctMatrix n * (A.map (· - 128) * (A.map (· - 128)).transpose) * (dctMatrix n).transpose).trace := by
        rw [dctMatrix_orthogonal', Matrix.mul_one]; simp only [Matrix.mul_assoc]
    _ = ((dctMatrix n).transpose * (dctMatrix n * (A.map (· - 128) * (A.map (· - 128)).transpose))).trace := Matrix.trace_mul_comm _ _
    _ = (A.map (· - 128) * (A.map (· - 128)).transpose).trace := by rw [← Matrix.mul_assoc, dctMatrix_orthogonal', Matrix.one_mul]

/-- **C99 (images that are not square: false)**: the number of rows is used for both directions. Two different images of one row and two columns
with the same sum have the same transform, so the image cannot be recovered. -/
theorem C99_wide_fails (h : Heap ℝ) (w : h.WF) (a b : Nat) (x y : ℝ) (hA : IsMat h a (!![x, y] : Matrix (Fin 1) (Fin 2) ℝ)) (la : h.live (.m a))
    (hB : IsMat h b (!![y, x] : Matrix (Fin 1) (Fin 2) ℝ)) (lb : h.live (.m b)) :
    ∃ D : Matrix (Fin 1) (Fin 2) ℝ, ReturnsMat (discrete_cosine_transform (some (.m a))) h D ∧
      ReturnsMat (discrete_cosine_transform (some (.m b))) h D := by
  refine ⟨_, dct_run w hA la, cast (congrArg _ ?_) (dct_run w hB lb)⟩
  have c1 : Real.cos (Real.pi / 2) = 0 := Real.cos_pi_div_two
  have c3 : Real.cos (Real.pi * 3 / 2) = 0 := by
    rw [show Real.pi * 3 / 2 = Real.pi / 2 + Real.pi by ring, Real.cos_add_pi, c1, neg_zero]
  ext i j
  fin_cases i; fin_cases j
  · simp [Fin.sum_univ_succ]; ring
  · have e : (2 : ℝ) + 1 = 3 := by norm_num
    simp [Fin.sum_univ_succ, c1, e, c3]

/-- A heap with a 2 by 2 image in matrix 0 and two images of one row in matrices 1 and 2. -/
noncomputable def exHeapDct : Heap ℝ := Heap.ofLists 0 [] [(2, 2, [1, 2, 3, 4]), (2, 1, [1, 2]), (2, 1, [2, 1])]

/-- The hypotheses of the theorems above are met. -/
example : exHeapDct.WF ∧ IsMat exHeapDct 0 (!![1, 2; 3, 4] : Matrix (Fin 2) (Fin 2) ℝ) ∧ exHeapDct.live (.m 0) ∧
    IsMat exHeapDct 1 (!![1, 2] : Matrix (Fin 1) (Fin 2) ℝ) ∧ exHeapDct.live (.m 1) ∧
    IsMat exHeapDct 2 (!![2, 1] : Matrix (Fin 1) (Fin 2) ℝ) ∧ exHeapDct.live (.m 2) := by
  refine ⟨Heap.ofLists_wf _ _ _ (by simp), ⟨by simp [exHeapDct, Heap.ofLists], fun i j => ?_⟩, by simp [exHeapDct, Heap.ofLists, Heap.live, Loc.id],
    ⟨by simp [exHeapDct, Heap.ofLists], fun i j => ?_⟩, by simp [exHeapDct, Heap.ofLists, Heap.live, Loc.id],
    ⟨by simp [exHeapDct, Heap.ofLists], fun i j => ?_⟩, by simp [exHeapDct, Heap.ofLists, Heap.live, Loc.id]⟩ <;>
  · fin_cases i <;> fin_cases j <;> simp [exHeapDct, Heap.ofLists]

end Verif
