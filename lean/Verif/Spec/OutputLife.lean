import Verif.Spec.MlpLife
import Verif.Spec.Layers
import Verif.Model.OutputSetters

/-! # Specification vocabulary for the life of an output layer -/

namespace Verif.Spec.OutputLife
open OutputLayer
noncomputable section

/-- The inputs set last, `a` at first. -/
def lastInput (a : Ref) (hist : List Call) : Ref := lastValue (fun | .set_input v => some v | _ => none) hist a

/-- The number of weights set last, `u` at first. -/
def lastUnits (u : Nat) (hist : List Call) : Nat := lastValue (fun | .set_n_hidden v => some v | _ => none) hist u

/-- The weight distribution set last. -/
def lastDistribution (d : Utilities.Kind) (hist : List Call) : Utilities.Kind := lastValue (fun | .set_weight_init v => some v | _ => none) hist d

/-- The random numbers, for the weights and for the bias, offered to a call that uses them. -/
def offered : Call → Option (Utilities.Source × Utilities.Source)
  | .initialize_ g g' | .forward_pass g g' | .test _ g g' => some (g, g')
  | _ => none

/-- A call that makes the layer draw anew: every setter but that of the regularisation. -/
def Resets : Call → Prop
  | .initialize_ _ _ | .forward_pass _ _ | .test _ _ _ | .set_reg _ => False
  | _ => True

/-- New weights are due: there was no use since the last setter (but that of the regularisation). -/
def Waiting (hist : List Call) : Prop := ∃ before c after, hist = before ++ c :: after ∧ Resets c ∧ ∀ x ∈ after, ¬ Resets x ∧ offered x = none

/-- The weights and the bias in use come from `g` and `g'`: the random numbers offered to the first use after the last setter (but that of the regularisation), or
those offered to the constructor if there was no such setter. -/
def DrawnFrom (g0 g0' : Utilities.Source) (hist : List Call) (g g' : Utilities.Source) : Prop :=
  (∀ c ∈ hist, ¬ Resets c) ∧ g = g0 ∧ g' = g0' ∨
  ∃ before u after, hist = before ++ u :: after ∧ Waiting before ∧ offered u = some (g, g') ∧ ∀ c ∈ after, ¬ Resets c

/-- What a call is given, when the inputs are `a` and there are `u` weights: for a forward pass, the inputs are a matrix with `u` columns which existed before the layer
was made; a vector to test has `u` elements; the activation function is not adj_softmax (see C103). -/
def Admissible (h : Heap ℝ) (a : Ref) (u : Nat) : Call → Prop
  | .set_activation f => f ≠ .adj_softmax
  | .forward_pass _ _ => ∃ (n : Nat) (X : Matrix (Fin n) (Fin u) ℝ), HasM h a X
  | .test x _ _ => ∃ v : Fin u → ℝ, HasV h x v
  | _ => True

end
end Verif.Spec.OutputLife
