import Verif.Spec.Glm
import Verif.Spec.Softmax
import Verif.Model.SoftmaxReg

/-! # Specification vocabulary for softmax regression -/

namespace Verif.Spec
open Finset
noncomputable section
variable {n k c : Nat}

/-- A matrix of weights, a column for every class, and a vector of biases. -/
abbrev MParams (k c : Nat) := Matrix (Fin k) (Fin c) ℝ × (Fin c → ℝ)

/-- The affine functions of the classes at every row of `X`. -/
def affine (X : Matrix (Fin n) (Fin k) ℝ) (θ : MParams k c) : Matrix (Fin n) (Fin c) ℝ := fun i a => ∑ j, X i j * θ.1 j a + θ.2 a

/-- The predicted distributions over the classes. -/
def softmaxes (X : Matrix (Fin n) (Fin k) ℝ) (θ : MParams k c) : Matrix (Fin n) (Fin c) ℝ := fun i => softmax (affine X θ i)

/-- The cross entropy of the predicted distributions and `Y`, summed over the rows. -/
def softmaxLoss (X : Matrix (Fin n) (Fin k) ℝ) (Y : Matrix (Fin n) (Fin c) ℝ) (θ : MParams k c) : ℝ :=
  crossEntropy (cells (softmaxes X θ)) (cells Y)

/-- One step of gradient descent on `L`, followed by `D` on every weight. -/
def MGradStep (L : MParams k c → ℝ) (learning_rate : ℝ) (D : ℝ → ℝ) (θ θ' : MParams k c) : Prop :=
  ∃ (G : Matrix (Fin k) (Fin c) ℝ) (g : Fin c → ℝ), Gradient (fun w => L (fun i j => w (i, j), θ.2)) (cells θ.1) (cells G) ∧
    Gradient (fun b => L (θ.1, b)) θ.2 g ∧ θ' = (fun i j => D (θ.1 i j - learning_rate * G i j), fun j => θ.2 j - learning_rate * g j)

/-- The object is set up: input set `X`, output set `Y`, weights and biases `θ`; the matrix of weights is neither the input nor the output set. -/
structure SoftmaxReady (s : SoftmaxReg) (h : Heap ℝ) (X : Matrix (Fin n) (Fin k) ℝ) (Y : Matrix (Fin n) (Fin c) ℝ) (θ : MParams k c) : Prop where
  wf : h.WF
  input : HasM h s.input_set X
  output : HasM h s.output_set Y
  weights : HasM h s.weights θ.1
  bias : HasV h s.bias θ.2
  apart_input : s.input_set ≠ s.weights
  apart_output : s.output_set ≠ s.weights

/-- After training: the object is set up with the same data and settings, and shows the predictions of `θ`; of the objects that existed before, at
most its old matrix of weights and its vector of biases have changed; the predictions are shown in a new matrix, and the weights are in the old matrix or a new
one. -/
structure SoftmaxTrained (s : SoftmaxReg) (h : Heap ℝ) (s' : SoftmaxReg) (h' : Heap ℝ) (X : Matrix (Fin n) (Fin k) ℝ)
    (Y : Matrix (Fin n) (Fin c) ℝ) (θ : MParams k c) : Prop where
  ready : SoftmaxReady s' h' X Y θ
  shown : HasM h' s'.y_hat (softmaxes X θ)
  same : s' = { s with y_hat := s'.y_hat, weights := s'.weights }
  frame : Keeps h h' (fun l => some l = s.weights ∨ some l = s.bias)
  own_shown : NotIn h s'.y_hat
  own_weights : s'.weights = s.weights ∨ NotIn h s'.weights
  apart_shown : s'.y_hat ≠ s'.weights

end
end Verif.Spec
