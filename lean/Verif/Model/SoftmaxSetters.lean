import Verif.Model.SoftmaxReg

/-! # The setters and getters of `MLPPSoftmaxReg` (modules/softmax_reg/softmax_reg.cpp) -/

namespace Verif.SoftmaxReg
noncomputable section

/-- `MLPPSoftmaxReg()`, softmax_reg.cpp:346-355. -/
def blank : M ℝ SoftmaxReg := do
  let y_hat ← newMat
  let weights ← newMat
  let bias ← newVec
  pure ⟨none, none, some y_hat, some weights, some bias, .none, 1 / 2, 1 / 2⟩

/-- `set_input_set(val)`, softmax_reg.cpp:43-45. -/
def set_input_set (s : SoftmaxReg) (val : Ref) : SoftmaxReg := { s with input_set := val }
/-- `set_output_set(val)`, softmax_reg.cpp:50-52. -/
def set_output_set (s : SoftmaxReg) (val : Ref) : SoftmaxReg := { s with output_set := val }
/-- `set_reg(val)`, softmax_reg.cpp:57-59. -/
def set_reg (s : SoftmaxReg) (val : Reg.Kind) : SoftmaxReg := { s with reg := val }
/-- `set_lambda(val)`, softmax_reg.cpp:64-66. -/
def set_lambda (s : SoftmaxReg) (val : ℝ) : SoftmaxReg := { s with lambda := val }
/-- `set_alpha(val)`, softmax_reg.cpp:71-73. -/
def set_alpha (s : SoftmaxReg) (val : ℝ) : SoftmaxReg := { s with alpha := val }
/-- `data_y_hat_set(val)`, softmax_reg.cpp:78-80. -/
def data_y_hat_set (s : SoftmaxReg) (val : Ref) : SoftmaxReg := { s with y_hat := val }
/-- `data_weights_set(val)`, softmax_reg.cpp:85-87. -/
def data_weights_set (s : SoftmaxReg) (val : Ref) : SoftmaxReg := { s with weights := val }
/-- `data_bias_set(val)`, softmax_reg.cpp:92-94. -/
def data_bias_set (s : SoftmaxReg) (val : Ref) : SoftmaxReg := { s with bias := val }

/-- `get_input_set()`, softmax_reg.cpp:40-42. -/
def get_input_set (s : SoftmaxReg) : Ref := s.input_set
/-- `get_output_set()`, softmax_reg.cpp:47-49. -/
def get_output_set (s : SoftmaxReg) : Ref := s.output_set
/-- `get_reg()`, softmax_reg.cpp:54-56. -/
def get_reg (s : SoftmaxReg) : Reg.Kind := s.reg
/-- `get_lambda()`, softmax_reg.cpp:61-63. -/
def get_lambda (s : SoftmaxReg) : ℝ := s.lambda
/-- `get_alpha()`, softmax_reg.cpp:68-70. -/
def get_alpha (s : SoftmaxReg) : ℝ := s.alpha
/-- `data_y_hat_get()`, softmax_reg.cpp:75-77. -/
def data_y_hat_get (s : SoftmaxReg) : Ref := s.y_hat
/-- `data_weights_get()`, softmax_reg.cpp:82-84. -/
def data_weights_get (s : SoftmaxReg) : Ref := s.weights
/-- `data_bias_get()`, softmax_reg.cpp:89-91. -/
def data_bias_get (s : SoftmaxReg) : Ref := s.bias

/-- A call on an object: of a setter of the data or of a setting, of `initialize`, or of `train_gradient_descent`. -/
inductive Call where
  | set_input_set (val : Ref)
  | set_output_set (val : Ref)
  | set_reg (val : Reg.Kind)
  | set_lambda (val : ℝ)
  | set_alpha (val : ℝ)
  | initialize_ (gw gb : Utilities.Source)
  | train_gradient_descent (learning_rate : ℝ) (max_epoch : Int)

/-- What a call does to the object. -/
def call (s : SoftmaxReg) : Call → M ℝ SoftmaxReg
  | .set_input_set v => pure (SoftmaxReg.set_input_set s v)
  | .set_output_set v => pure (SoftmaxReg.set_output_set s v)
  | .set_reg v => pure (SoftmaxReg.set_reg s v)
  | .set_lambda v => pure (SoftmaxReg.set_lambda s v)
  | .set_alpha v => pure (SoftmaxReg.set_alpha s v)
  | .initialize_ gw gb => SoftmaxReg.initialize_ gw gb s
  | .train_gradient_descent lr e => SoftmaxReg.train_gradient_descent s lr e

/-- A history of calls. -/
def run (s : SoftmaxReg) : List Call → M ℝ SoftmaxReg
  | [] => pure s
  | c :: hist => do
    let s ← call s c
    run s hist

end
end Verif.SoftmaxReg
