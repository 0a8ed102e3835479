import Verif.Spec.Matrix
import Mathlib.Analysis.Calculus.Deriv.Basic
import Mathlib.Analysis.SpecialFunctions.Log.Basic
import Mathlib.Analysis.Real.Sqrt

/-!
# Specification vocabulary for losses and regularisation

Predictions `p` and targets `y` are families of real numbers indexed by a finite type: the elements of a vector, or the cells of
a matrix (`cells`).
-/

namespace Verif.Spec
open Finset
noncomputable section
variable {ι : Type} [Fintype ι]

/-- The cells of a matrix as one family. -/
def cells {m n : Nat} (A : Matrix (Fin m) (Fin n) ℝ) : Fin m × Fin n → ℝ := fun c => A c.1 c.2

/-- The number of entries. -/
abbrev num (ι : Type) [Fintype ι] : ℝ := (Fintype.card ι : ℝ)

/-- Half the mean squared error. -/
def halfMse (p y : ι → ℝ) : ℝ := (∑ i, (p i - y i) ^ 2) / (2 * num ι)
/-- Root mean squared error. -/
def rmse (p y : ι → ℝ) : ℝ := Real.sqrt ((∑ i, (p i - y i) ^ 2) / num ι)
/-- Mean absolute error. -/
def mae (p y : ι → ℝ) : ℝ := (∑ i, |p i - y i|) / num ι
/-- Mean bias error. -/
def mbe (p y : ι → ℝ) : ℝ := (∑ i, (p i - y i)) / num ι
/-- Logistic loss, the logarithms being taken of `p + e` and `1 - p + e`. -/
def logLoss (e : ℝ) (p y : ι → ℝ) : ℝ :=
  (∑ i, -(y i * Real.log (p i + e) + (1 - y i) * Real.log (1 - p i + e))) / num ι
/-- Cross entropy. -/
def crossEntropy (p y : ι → ℝ) : ℝ := -∑ i, y i * Real.log (p i)
/-- Huber loss (twice the usual normalisation): quadratic up to `d`, linear beyond. -/
def huber (d : ℝ) (p y : ι → ℝ) : ℝ := ∑ i, if |p i - y i| ≤ d then (p i - y i) ^ 2 else 2 * d * |p i - y i| - d ^ 2
/-- Hinge loss. -/
def hinge (p y : ι → ℝ) : ℝ := (∑ i, max 0 (1 - y i * p i)) / num ι
/-- Wasserstein loss. -/
def wasserstein (p y : ι → ℝ) : ℝ := -(∑ i, p i * y i) / num ι

/-- The dual objective of the linear support vector machine (to be minimised): rows of `X` are the samples. -/
def svmDual {m n : Nat} (X : Matrix (Fin m) (Fin n) ℝ) (y α : Fin m → ℝ) : ℝ :=
  -∑ i, α i + 1 / 2 * ∑ i, ∑ j, α i * α j * (y i * y j) * ∑ k, X i k * X j k

/-- Penalties. -/
def ridgePenalty (l : ℝ) (w : ι → ℝ) : ℝ := l / 2 * ∑ i, w i ^ 2
def lassoPenalty (l : ℝ) (w : ι → ℝ) : ℝ := l * ∑ i, |w i|
def elasticPenalty (l a : ℝ) (w : ι → ℝ) : ℝ := l * ∑ i, (a * |w i| + (1 - a) / 2 * w i ^ 2)

/-- `g` is the gradient of `L` at `x`: `g i` is the derivative of `L` in the `i`-th coordinate. -/
def Gradient [DecidableEq ι] (L : (ι → ℝ) → ℝ) (x g : ι → ℝ) : Prop :=
  ∀ i, HasDerivAt (fun t => L (Function.update x i t)) (g i) (x i)

/-- A function of predictions and targets, for every number of entries. -/
abbrev Loss := ∀ (ι : Type) [Fintype ι], (ι → ℝ) → (ι → ℝ) → ℝ
/-- A condition on predictions and targets. -/
abbrev Cond := ∀ ι : Type, (ι → ℝ) → (ι → ℝ) → Prop

/-- Called on vectors `p` and `y` of the same length that satisfy `ok`, `op` returns a new vector: the gradient of `L(·, y)` at `p`. -/
def GradientV (op : Ref → Ref → M ℝ Ref) (L : Loss) (ok : Cond) : Prop :=
  ∀ (h : Heap ℝ) (a b n : Nat) (p y : Fin n → ℝ), h.WF → h.live (.v a) → h.live (.v b) → IsVec h a p → IsVec h b y → ok _ p y →
    ∃ g : Fin n → ℝ, ReturnsVec (op (some (.v a)) (some (.v b))) h g ∧ Gradient (fun u => L _ u y) p g

/-- The same for matrices of the same shape. -/
def GradientM (op : Ref → Ref → M ℝ Ref) (L : Loss) (ok : Cond) : Prop :=
  ∀ (h : Heap ℝ) (a b m n : Nat) (A B : Matrix (Fin m) (Fin n) ℝ), h.WF → h.live (.m a) → h.live (.m b) → IsMat h a A → IsMat h b B →
    ok _ (cells A) (cells B) →
    ∃ G : Matrix (Fin m) (Fin n) ℝ, ReturnsMat (op (some (.m a)) (some (.m b))) h G ∧
      Gradient (fun u => L _ u (cells B)) (cells A) (cells G)

end
end Verif.Spec
