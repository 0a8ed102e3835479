import Verif.Model.Softmax

/-!
# Where each activation function is differentiable, and which functions act element by element
-/

namespace Verif.Spec
open Activation

/-- The open set on which the activation function is defined and differentiable. -/
def smoothOn : Fn → Set ℝ
  | .linear | .sigmoid | .swish | .softplus | .softsign | .cloglog | .gaussian_cdf | .gelu
  | .sinh | .cosh | .tanh | .sech | .arsinh | .adj_softmax | .softmax | .mish => Set.univ
  | .logit => Set.Ioo 0 1
  | .sinc | .relu | .sign | .unit_step | .csch | .coth | .arcsch => {z | z ≠ 0}
  | .arcosh => Set.Ioi 1
  | .artanh => Set.Ioo (-1) 1
  | .arsech => Set.Ioo 0 1
  | .arcoth => {z | 1 < |z|}

/-- The activation functions that act on each element by itself. -/
def Elementwise : Fn → Prop
  | .softmax | .adj_softmax => False
  | _ => True

end Verif.Spec
