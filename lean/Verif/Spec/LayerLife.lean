import Verif.Spec.MlpLife
import Verif.Spec.Layers
import Verif.Model.LayerSetters

/-! # Specification vocabulary for the life of a hidden layer -/

namespace Verif.Spec.LayerLife
open HiddenLayer
noncomputable section

/-- The inputs set last, `a` at first. -/
def lastInput (a : Ref) (hist : List Call) : Ref := lastValue (fun | .set_input v => some v | _ => none) hist a

/-- The weight distribution set last. -/
def lastDistribution (d : Utilities.Kind) (hist : List Call) : Utilities.Kind := lastValue (fun | .set_weight_init v => some v | _ => none) hist d

/-- The random numbers offered to a call that uses the weights: `initialize`, `forward_pass` and `test`, as opposed to the setters. -/
def offered : Call → Option Utilities.Source
  | .initialize_ g _ | .forward_pass g _ | .test _ g _ => some g
  | _ => none

/-- A call that uses the weights. -/
def IsUse (c : Call) : Prop := offered c ≠ none

/-- The weights in use come from `g`: the random numbers offered to the first use after the last call of a setter, or those offered to the constructor, `g0`, if
no setter was called. -/
def DrawnFrom (g0 : Utilities.Source) (hist : List Call) (g : Utilities.Source) : Prop :=
  (∀ c ∈ hist, IsUse c) ∧ g = g0 ∨
  ∃ before c u after, hist = before ++ c :: u :: after ∧ ¬ IsUse c ∧ offered u = some g ∧ ∀ c ∈ after, IsUse c

/-- What a call is given, when the inputs are `a`: inputs which existed before the layer was made, with any numbers of rows and columns; one of the activation
functions that work for every value (see C103); the uniform distributions of weights (see C64); a vector to test of as many elements as the inputs have columns. -/
def Admissible (h : Heap ℝ) (a : Ref) : Call → Prop
  | .set_input v => ∃ (n k : Nat) (X : Matrix (Fin n) (Fin k) ℝ), HasM h v X
  | .set_activation f => f ∉ [Activation.Fn.adj_softmax, .swish, .mish, .softplus, .softsign]
  | .set_weight_init v => v = .default ∨ v = .uniform
  | .test x _ _ => ∃ (n k : Nat) (X : Matrix (Fin n) (Fin k) ℝ) (v : Fin k → ℝ), HasM h a X ∧ HasV h x v
  | _ => True

end
end Verif.Spec.LayerLife
