import Verif.Spec.Tensor
import Verif.Model.Convolutions
import Mathlib.Data.Real.Basic
import Mathlib.Algebra.Order.Archimedean.Real.Basic
import Mathlib.Algebra.BigOperators.Fin

/-! # Specification vocabulary for images: zero extension, windows, correlation -/

namespace Verif.Spec
variable {m n F : Nat}

/-- The image continued by zeros: the cell in row `i` and column `j`, or 0 outside. -/
def ext (A : Matrix (Fin m) (Fin n) ℝ) (i j : Int) : ℝ :=
  if h : (0 ≤ i ∧ i < m) ∧ (0 ≤ j ∧ j < n) then A ⟨i.toNat, by omega⟩ ⟨j.toNat, by omega⟩ else 0

/-- The square window of `F` rows and columns of the zero-extended image whose first cell is `(a, b)`. -/
def window (F : Nat) (A : Matrix (Fin m) (Fin n) ℝ) (a b : Int) : Matrix (Fin F) (Fin F) ℝ := fun k p => ext A (a + k.val) (b + p.val)

/-- The filter `K` laid over the zero-extended image with its first cell at `(a, b)`: sum of the products of the cells. -/
def overlap (A : Matrix (Fin m) (Fin n) ℝ) (K : Matrix (Fin F) (Fin F) ℝ) (a b : Int) : ℝ :=
  ∑ k, ∑ p, window F A a b k p * K k p

/-- Convolution (as the word is used for neural networks) of an image with a filter, with stride `S` and padding `P`. -/
def convolution (A : Matrix (Fin m) (Fin n) ℝ) (K : Matrix (Fin F) (Fin F) ℝ) (S P M : Nat) : Matrix (Fin M) (Fin M) ℝ := fun i j =>
  overlap A K (i.val * S - P : Int) (j.val * S - P : Int)

/-- The average, least or greatest of finitely many numbers. -/
noncomputable def pooled (type : Convolutions.PoolType) {ι : Type} [Fintype ι] (f : ι → ℝ) : ℝ :=
  match type with
  | .average => (∑ i, f i) / (Fintype.card ι : ℝ)
  | .min => ⨅ i, f i
  | .max => ⨆ i, f i

/-- Pooling of an image: one number for each window of `F` rows and columns, the windows being `S` rows or columns apart. -/
noncomputable def pooling (type : Convolutions.PoolType) (F S : Nat) (A : Matrix (Fin m) (Fin n) ℝ) (M : Nat) : Matrix (Fin M) (Fin M) ℝ :=
  fun i j => pooled type fun q : Fin F × Fin F => ext A (i.val * S + q.1.val) (j.val * S + q.2.val)

/-- The change of the image from left to right: the right neighbour minus the left neighbour of every cell (0 beyond the border). -/
def slopeX (A : Matrix (Fin m) (Fin n) ℝ) : Matrix (Fin m) (Fin n) ℝ := fun i j => ext A i.val (j.val + 1) - ext A i.val (j.val - 1)

/-- The change of the image from bottom to top: the upper neighbour minus the lower neighbour of every cell (0 beyond the border). -/
def slopeY (A : Matrix (Fin m) (Fin n) ℝ) : Matrix (Fin m) (Fin n) ℝ := fun i j => ext A (i.val - 1) j.val - ext A (i.val + 1) j.val

/-- The 3 by 3 weights of the Gaussian bell of width 1, centred on the middle cell. -/
noncomputable def gauss3 : Matrix (Fin 3) (Fin 3) ℝ := fun k p =>
  1 / (2 * Real.pi) * Real.exp (-(((k.val : ℝ) - 1) ^ 2 + ((p.val : ℝ) - 1) ^ 2) / 2)

/-- The image smoothed with these weights. -/
noncomputable def smooth (A : Matrix (Fin m) (Fin m) ℝ) : Matrix (Fin m) (Fin m) ℝ := fun i j => overlap A gauss3 (i.val - 1) (j.val - 1)

/-- The structure tensor of an image: the smoothed products of its slopes. -/
noncomputable def tensorXX (A : Matrix (Fin m) (Fin m) ℝ) := smooth (Matrix.of fun i j => slopeX A i j ^ 2)
noncomputable def tensorYY (A : Matrix (Fin m) (Fin m) ℝ) := smooth (Matrix.of fun i j => slopeY A i j ^ 2)
noncomputable def tensorXY (A : Matrix (Fin m) (Fin m) ℝ) := smooth (Matrix.of fun i j => slopeX A i j * slopeY A i j)

/-- The Harris response: determinant minus 0.05 times the squared trace of the structure tensor. -/
noncomputable def harris (A : Matrix (Fin m) (Fin m) ℝ) : Matrix (Fin m) (Fin m) ℝ := fun i j =>
  (tensorXX A i j * tensorYY A i j - tensorXY A i j ^ 2) - 0.05 * (tensorXX A i j + tensorYY A i j) ^ 2

/-- A volume continued by zeros: the cell in slice `z`, row `y`, column `x`, or 0 outside. -/
def ext3 {d r c : Nat} (T : Fin d → Fin r → Fin c → ℝ) (z y x : Int) : ℝ :=
  if h : (0 ≤ z ∧ z < d) ∧ (0 ≤ y ∧ y < r) ∧ (0 ≤ x ∧ x < c) then T ⟨z.toNat, by omega⟩ ⟨y.toNat, by omega⟩ ⟨x.toNat, by omega⟩ else 0

/-- The cell in slice `z`, row `y`, column `x` of a volume padded with `P` zeros, if the volume is read with the indices in the order row, column, slice. -/
noncomputable def padCell {d r c : Nat} (T : Fin d → Fin r → Fin c → ℝ) (P : Nat) (z y x : Int) : ℝ :=
  if 0 ≤ y - P ∧ y - P < r ∧ 0 ≤ x - P ∧ x - P < c then ext3 T (y - P) (x - P) z else 0

/-- Convolution of a volume of `D` channels with a filter of `D` channels, without padding: the filter laid over the window of all channels. -/
def convolution3 {D r c : Nat} (T : Fin D → Fin r → Fin c → ℝ) (K : Fin D → Fin F → Fin F → ℝ) (S M : Nat) : Matrix (Fin M) (Fin M) ℝ := fun i j =>
  ∑ t : Fin D, ∑ k : Fin F, ∑ p : Fin F, ext3 T t.val (i.val * S + k.val) (j.val * S + p.val) * K t k p

end Verif.Spec
