import Verif.Spec.MlpLife
import Verif.Spec.Layers
import Verif.Model.MultiSetters

/-! # Specification vocabulary for the life of a layer with several outputs -/

namespace Verif.Spec.MultiLife
open MultiOutputLayer
noncomputable section

/-- The inputs set last, `a` at first. -/
def lastInput (a : Ref) (hist : List Call) : Ref := lastValue (fun | .set_input v => some v | _ => none) hist a
/-- The activation function set last, `f` at first. -/
def lastActivation (f : Activation.Fn) (hist : List Call) : Activation.Fn := lastValue (fun | .set_activation v => some v | _ => none) hist f

/-- The weights set last, `none` if they are those of the constructor. -/
def setWeights (hist : List Call) : Option Ref := lastValue (fun | .set_weights v => some (some v) | _ => none) hist none
/-- The biases set last, `none` if they are those of the constructor. -/
def setBias (hist : List Call) : Option Ref := lastValue (fun | .set_bias v => some (some v) | _ => none) hist none
/-- The error signal set last, `none` if it is that of the constructor. -/
def setDelta (hist : List Call) : Option Ref := lastValue (fun | .set_delta v => some (some v) | _ => none) hist none
/-- The sums set since the last forward pass, `none` if there are none. -/
def setZ (hist : List Call) : Option Ref := lastValue (fun | .set_z v => some (some v) | .forward_pass => some none | _ => none) hist none
/-- The outputs set since the last forward pass, `none` if there are none. -/
def setA (hist : List Call) : Option Ref := lastValue (fun | .set_a v => some (some v) | .forward_pass => some none | _ => none) hist none
/-- The sums for a vector set since the last test, `none` if there are none. -/
def setZTest (hist : List Call) : Option Ref := lastValue (fun | .set_z_test v => some (some v) | .test _ => some none | _ => none) hist none
/-- The outputs for a vector set since the last test, `none` if there are none. -/
def setATest (hist : List Call) : Option Ref := lastValue (fun | .set_a_test v => some (some v) | .test _ => some none | _ => none) hist none

/-- The weights have `k` rows and `m` columns: those set last, or those that the constructor made with `k0` and `m0`. -/
def WeightsFit (h : Heap ℝ) (k0 m0 : Nat) (hist : List Call) (k m : Nat) : Prop :=
  setWeights hist = none ∧ k = k0 ∧ m = m0 ∨ ∃ r, setWeights hist = some r ∧ ∃ W : Matrix (Fin k) (Fin m) ℝ, HasM h r W

/-- There are `m` biases: those set last, or those that the constructor made with `m0`. -/
def BiasFits (h : Heap ℝ) (m0 : Nat) (hist : List Call) (m : Nat) : Prop :=
  setBias hist = none ∧ m = m0 ∨ ∃ r, setBias hist = some r ∧ ∃ b : Fin m → ℝ, HasV h r b

/-- What a call is given, on a layer made with `k0` hidden units, `m0` outputs and the inputs `a`, after the calls `before`: for a forward pass and a test, inputs,
weights and biases whose sizes fit together, and that existed before the layer was made; one of the activation functions that work for every value (see C105). -/
def Admissible (h : Heap ℝ) (k0 m0 : Nat) (a : Ref) (before : List Call) : Call → Prop
  | .set_activation f => f ∉ [Activation.Fn.adj_softmax, .swish, .mish, .softplus, .softsign]
  | .forward_pass => ∃ (n k m : Nat) (X : Matrix (Fin n) (Fin k) ℝ), HasM h (lastInput a before) X ∧ WeightsFit h k0 m0 before k m ∧ BiasFits h m0 before m
  | .test x => ∃ (k m : Nat) (v : Fin k → ℝ), HasV h x v ∧ WeightsFit h k0 m0 before k m ∧ BiasFits h m0 before m
  | _ => True

end
end Verif.Spec.MultiLife
