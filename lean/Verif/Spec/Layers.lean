import Verif.Model.Layers
import Verif.Spec.Activation
import Verif.Spec.SoftmaxReg
import Verif.Spec.Softmax
import Verif.Props.WeightInit

/-! # Specification vocabulary for the layers of networks -/

namespace Verif.Spec
noncomputable section
open Activation
variable {n k m : Nat}

/-- The activation function applied to the values of the units of a layer: softmax, in both of its versions, looks at all of them, the others at each by
itself. -/
def applied (f : Fn) (v : Fin n → ℝ) : Fin n → ℝ :=
  match f with
  | .softmax => softmax v
  | .adj_softmax => softmax v
  | f => fun i => normReal f (v i)

/-- The values can be given to the activation function: adj_softmax converts them to `int`, and they must fit. -/
def FitsInt (f : Fn) (v : Fin n → ℝ) : Prop := f = .adj_softmax → ∀ i, -2147483649 < v i ∧ v i < 2147483648

/-- The outputs of a layer with weights and biases `θ` at every row of `X`. -/
def layerOut (f : Fn) (X : Matrix (Fin n) (Fin k) ℝ) (θ : MParams k m) : Matrix (Fin n) (Fin m) ℝ := fun i => applied f (affine X θ i)

/-- The numbers which an initialisation of a matrix of weights makes of the draws. -/
def drawnM (g : Utilities.Source) (type : Utilities.Kind) (k m : Nat) : Matrix (Fin k) (Fin m) ℝ :=
  fun i j => drawn type m k (g.u (i.val * m + j.val)) (g.z (i.val * m + j.val))

/-- The numbers which an initialisation of a vector of weights makes of the draws. -/
def drawnV (g : Utilities.Source) (type : Utilities.Kind) (m : Nat) : Fin m → ℝ := fun i => drawn type m 1 (g.u i) (g.z i)

/-- The objects of a hidden layer: the inputs are `X`, the weights and biases `θ`; the objects it writes to are none of the others. -/
structure HiddenReady (s : HiddenLayer) (h : Heap ℝ) (X : Matrix (Fin n) (Fin k) ℝ) (θ : MParams k m) : Prop where
  wf : h.WF
  units : s.n_hidden = m
  input : HasM h s.input X
  weights : HasM h s.weights θ.1
  bias : HasV h s.bias θ.2
  z : ∃ (p q : Nat) (A : Matrix (Fin p) (Fin q) ℝ), HasM h s.z A
  apart : [s.z, s.weights, s.input].Nodup

/-- The objects of an output layer. -/
structure OutputReady (s : OutputLayer) (h : Heap ℝ) (X : Matrix (Fin n) (Fin k) ℝ) (θ : Params k) : Prop where
  wf : h.WF
  units : s.n_hidden = k
  input : HasM h s.input X
  weights : HasV h s.weights θ.1
  bias : s.bias = θ.2

/-- The objects of a layer with several outputs. -/
structure MultiReady (s : MultiOutputLayer) (h : Heap ℝ) (X : Matrix (Fin n) (Fin k) ℝ) (θ : MParams k m) : Prop where
  wf : h.WF
  input : HasM h s.input X
  weights : HasM h s.weights θ.1
  bias : HasV h s.bias θ.2

end
end Verif.Spec
