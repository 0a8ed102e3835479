import Verif.Spec.SoftmaxReg
import Verif.Model.Mlp

/-! # Specification vocabulary for the multilayer perceptron -/

namespace Verif.Spec
open Finset
noncomputable section
variable {n k m : Nat}

/-- Weights and biases of the hidden layer, weights and bias of the output. -/
abbrev NetParams (k m : Nat) := MParams k m × Params m

/-- The hidden layer: the logistic function of affine functions, at every row of `X`. -/
def hiddens (X : Matrix (Fin n) (Fin k) ℝ) (θ : MParams k m) : Matrix (Fin n) (Fin m) ℝ := fun i a => logistic (affine X θ i a)

/-- The outputs of the network: the logistic function of an affine function of the hidden layer, at every row of `X`. -/
def netOut (X : Matrix (Fin n) (Fin k) ℝ) (θ : NetParams k m) : Fin n → ℝ := fun i => logistic (linear (hiddens X θ.1) θ.2 i)

/-- The logistic loss of the outputs of the network. -/
def netLoss (X : Matrix (Fin n) (Fin k) ℝ) (y : Fin n → ℝ) (θ : NetParams k m) : ℝ := logLoss 0 (netOut X θ) y

/-- The mean over the samples of `e i` times the output of the network before the last logistic function. -/
def weightedOut (X : Matrix (Fin n) (Fin k) ℝ) (e : Fin n → ℝ) (θ : NetParams k m) : ℝ := (∑ i, e i * linear (hiddens X θ.1) θ.2 i) / n

/-- A step of gradient descent on the loss in both layers. -/
structure NetStep (X : Matrix (Fin n) (Fin k) ℝ) (y : Fin n → ℝ) (learning_rate : ℝ) (D : ℝ → ℝ) (θ θ' : NetParams k m) : Prop where
  second : GradStep (fun η => netLoss X y (θ.1, η)) learning_rate D θ.2 θ'.2
  first : MGradStep (fun η => netLoss X y (η, θ.2)) learning_rate D θ.1 θ'.1

/-- What the library does in a step: gradient descent on the loss in the output layer, and then, in the hidden layer, a step along the errors
of the old network weighted with the *new* output layer. -/
structure NetUpdate (X : Matrix (Fin n) (Fin k) ℝ) (y : Fin n → ℝ) (learning_rate : ℝ) (D : ℝ → ℝ) (θ θ' : NetParams k m) : Prop where
  second : GradStep (fun η => netLoss X y (θ.1, η)) learning_rate D θ.2 θ'.2
  first : MGradStep (fun η => weightedOut X (fun i => netOut X θ i - y i) (η, θ'.2)) learning_rate D θ.1 θ'.1

/-- The object is set up: its data are `X` and `y`, its parameters `θ`; none of the objects it writes to is also one of the others. -/
structure MlpReady (s : Mlp) (h : Heap ℝ) (X : Matrix (Fin n) (Fin k) ℝ) (y : Fin n → ℝ) (θ : NetParams k m) : Prop where
  wf : h.WF
  init : s.initialized = true
  rows : s.n = n
  input : HasM h s.input_set X
  output : HasV h s.output_set y
  weights1 : HasM h s.weights1 θ.1.1
  bias1 : HasV h s.bias1 θ.1.2
  weights2 : HasV h s.weights2 θ.2.1
  bias2 : s.bias2 = θ.2.2
  y_hat : ∃ (q : Nat) (v : Fin q → ℝ), HasV h s.y_hat v
  z2 : ∃ (p q : Nat) (A : Matrix (Fin p) (Fin q) ℝ), HasM h s.z2 A
  a2 : ∃ (p q : Nat) (A : Matrix (Fin p) (Fin q) ℝ), HasM h s.a2 A
  apart_vectors : [s.y_hat, s.weights2, s.bias1, s.output_set].Nodup
  apart_matrices : [s.z2, s.a2, s.weights1, s.input_set].Nodup

/-- After training: the object is set up with the same data and settings, and shows the predictions of `θ`; of the objects that existed before only
those of the network have changed, and the predictions are shown in the object's own vector or in a new one. -/
structure MlpTrained (s : Mlp) (h : Heap ℝ) (s' : Mlp) (h' : Heap ℝ) (X : Matrix (Fin n) (Fin k) ℝ) (y : Fin n → ℝ) (θ : NetParams k m) : Prop where
  ready : MlpReady s' h' X y θ
  shown : HasV h' s'.y_hat (netOut X θ)
  same : s' = { s with y_hat := s'.y_hat, bias2 := s'.bias2 }
  frame : Keeps h h' fun l => some l ∈ [s.y_hat, s.weights1, s.weights2, s.bias1, s.z2, s.a2]
  own : s'.y_hat = s.y_hat ∨ NotIn h s'.y_hat

end
end Verif.Spec
