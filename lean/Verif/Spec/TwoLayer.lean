import Verif.Spec.Mlp
import Verif.Model.SoftmaxNet
import Verif.Model.AutoEncoder

/-! # Specification vocabulary for the networks with one hidden layer and several outputs -/

namespace Verif.Spec
open Finset
noncomputable section
variable {n k m c : Nat}

/-- Weights and biases of the hidden layer, weights and biases of the outputs. -/
abbrev DeepParams (k m c : Nat) := MParams k m × MParams m c

/-- The outputs (before any softmax) at every row of `X`. -/
def deepOut (X : Matrix (Fin n) (Fin k) ℝ) (θ : DeepParams k m c) : Matrix (Fin n) (Fin c) ℝ := affine (hiddens X θ.1) θ.2

/-- The sum of the outputs, those of sample `i` weighted with row `i` of `E`. -/
def weightedDeep (X : Matrix (Fin n) (Fin k) ℝ) (E : Matrix (Fin n) (Fin c) ℝ) (θ : DeepParams k m c) : ℝ := ∑ i, ∑ b, E i b * deepOut X θ i b

/-- The predicted distributions over the classes. -/
def deepSoftmax (X : Matrix (Fin n) (Fin k) ℝ) (θ : DeepParams k m c) : Matrix (Fin n) (Fin c) ℝ := fun i => softmax (deepOut X θ i)

/-- The cross entropy of the predicted distributions and `Y`, summed over the rows. -/
def deepLoss (X : Matrix (Fin n) (Fin k) ℝ) (Y : Matrix (Fin n) (Fin c) ℝ) (θ : DeepParams k m c) : ℝ :=
  crossEntropy (cells (deepSoftmax X θ)) (cells Y)

/-- A step of gradient descent on the loss in both layers. -/
structure DeepStep (X : Matrix (Fin n) (Fin k) ℝ) (Y : Matrix (Fin n) (Fin c) ℝ) (learning_rate : ℝ) (D : ℝ → ℝ) (θ θ' : DeepParams k m c) : Prop where
  second : MGradStep (fun η => deepLoss X Y (θ.1, η)) learning_rate D θ.2 θ'.2
  first : MGradStep (fun η => deepLoss X Y (η, θ.2)) learning_rate D θ.1 θ'.1

/-- What the library does in a step: gradient descent on the loss in the output layer, and then, in the hidden layer, a step along the errors of the
old network weighted with the *new* output layer. -/
structure DeepUpdate (X : Matrix (Fin n) (Fin k) ℝ) (Y : Matrix (Fin n) (Fin c) ℝ) (learning_rate : ℝ) (D : ℝ → ℝ) (θ θ' : DeepParams k m c) : Prop where
  second : MGradStep (fun η => deepLoss X Y (θ.1, η)) learning_rate D θ.2 θ'.2
  first : MGradStep (fun η => weightedDeep X (fun i b => deepSoftmax X θ i b - Y i b) (η, θ'.2)) learning_rate D θ.1 θ'.1

/-- The same with the biases of the outputs left alone. -/
structure DeepUpdateW (X : Matrix (Fin n) (Fin k) ℝ) (Y : Matrix (Fin n) (Fin c) ℝ) (learning_rate : ℝ) (D : ℝ → ℝ) (θ θ' : DeepParams k m c) : Prop where
  second : ∃ g : Fin c → ℝ, MGradStep (fun η => deepLoss X Y (θ.1, η)) learning_rate D θ.2 (θ'.2.1, g)
  biases : θ'.2.2 = θ.2.2
  first : MGradStep (fun η => weightedDeep X (fun i b => deepSoftmax X θ i b - Y i b) (η, θ'.2)) learning_rate D θ.1 θ'.1

/-- The outputs can be converted to `int`, as `adj_softmax` does. -/
def Fits (X : Matrix (Fin n) (Fin k) ℝ) (θ : DeepParams k m c) : Prop := ∀ i b, -2147483649 < deepOut X θ i b ∧ deepOut X θ i b < 2147483648

/-- The object is set up: its data are `X` and `Y`, its parameters `θ`; none of the objects it writes to is also one of the others. -/
structure SoftmaxNetReady (s : SoftmaxNet) (h : Heap ℝ) (X : Matrix (Fin n) (Fin k) ℝ) (Y : Matrix (Fin n) (Fin c) ℝ) (θ : DeepParams k m c) : Prop where
  wf : h.WF
  units : s.n_hidden = m
  input : HasM h s.input_set X
  output : HasM h s.output_set Y
  weights1 : HasM h s.weights1 θ.1.1
  bias1 : HasV h s.bias1 θ.1.2
  weights2 : HasM h s.weights2 θ.2.1
  bias2 : HasV h s.bias2 θ.2.2
  y_hat : ∃ (q : Nat) (P : Matrix (Fin n) (Fin q) ℝ), HasM h s.y_hat P
  apart : ∀ r ∈ [s.input_set, s.output_set, s.y_hat], r ≠ s.weights1 ∧ r ≠ s.weights2
  apart_weights : s.weights1 ≠ s.weights2
  apart_biases : s.bias1 ≠ s.bias2

/-- After training: the object is set up with the same data and settings, and shows the predictions of `θ`; of the objects that existed before only
those of the network have changed. -/
structure SoftmaxNetTrained (s : SoftmaxNet) (h : Heap ℝ) (s' : SoftmaxNet) (h' : Heap ℝ) (X : Matrix (Fin n) (Fin k) ℝ)
    (Y : Matrix (Fin n) (Fin c) ℝ) (θ : DeepParams k m c) : Prop where
  ready : SoftmaxNetReady s' h' X Y θ
  shown : HasM h' s'.y_hat (deepSoftmax X θ)
  same : s' = { s with y_hat := s'.y_hat, z2 := s'.z2, a2 := s'.a2, weights1 := s'.weights1, weights2 := s'.weights2 }
  frame : Keeps h h' fun l => some l ∈ [s.weights1, s.weights2, s.bias1, s.bias2]

/-- Half the squared distance of the outputs and `Y`, divided by the number of samples. -/
def deepSq (X : Matrix (Fin n) (Fin k) ℝ) (Y : Matrix (Fin n) (Fin c) ℝ) (θ : DeepParams k m c) : ℝ :=
  (∑ i, ∑ b, (deepOut X θ i b - Y i b) ^ 2) / (2 * n)

/-- A step of gradient descent on half the mean squared distance of outputs and inputs, in both layers. -/
structure AutoStep (X : Matrix (Fin n) (Fin k) ℝ) (learning_rate : ℝ) (θ θ' : DeepParams k m k) : Prop where
  second : MGradStep (fun η => deepSq X X (θ.1, η)) learning_rate (fun x => x) θ.2 θ'.2
  first : MGradStep (fun η => deepSq X X (η, θ.2)) learning_rate (fun x => x) θ.1 θ'.1

/-- What the library does in a step on the rows of `X`: gradient descent on half the mean squared distance in the output layer, with the step of the
biases `n` times as long; and then, in the hidden layer, a step along the errors of the old network weighted with the *new* output layer. -/
structure AutoUpdate (X : Matrix (Fin n) (Fin k) ℝ) (learning_rate : ℝ) (θ θ' : DeepParams k m k) : Prop where
  second : ∃ g : Fin k → ℝ, MGradStep (fun η => deepSq X X (θ.1, η)) learning_rate (fun x => x) θ.2 (θ'.2.1, g) ∧
    ∀ b, θ'.2.2 b - θ.2.2 b = n * (g b - θ.2.2 b)
  first : MGradStep (fun η => weightedDeep X (fun i b => deepOut X θ i b - X i b) (η, θ'.2)) (learning_rate / n) (fun x => x) θ.1 θ'.1

/-- The auto encoder is set up. -/
structure AutoReady (s : AutoEncoder) (h : Heap ℝ) (X : Matrix (Fin n) (Fin k) ℝ) (θ : DeepParams k m k) : Prop where
  wf : h.WF
  init : s.initialized = true
  rows : s.n = n
  input : HasM h s.input_set X
  weights1 : HasM h s.weights1 θ.1.1
  bias1 : HasV h s.bias1 θ.1.2
  weights2 : HasM h s.weights2 θ.2.1
  bias2 : HasV h s.bias2 θ.2.2
  apart : s.input_set ≠ s.weights1 ∧ s.input_set ≠ s.weights2
  apart_weights : s.weights1 ≠ s.weights2
  apart_biases : s.bias1 ≠ s.bias2

/-- After training: the object is set up with the same data and settings, and shows the outputs of `θ`; of the objects that existed before only
those of the network have changed. -/
structure AutoTrained (s : AutoEncoder) (h : Heap ℝ) (s' : AutoEncoder) (h' : Heap ℝ) (X : Matrix (Fin n) (Fin k) ℝ) (θ : DeepParams k m k) : Prop where
  ready : AutoReady s' h' X θ
  shown : HasM h' s'.y_hat (deepOut X θ)
  same : s' = { s with y_hat := s'.y_hat, z2 := s'.z2, a2 := s'.a2 }
  frame : Keeps h h' fun l => some l ∈ [s.weights1, s.weights2, s.bias1, s.bias2]

end
end Verif.Spec
