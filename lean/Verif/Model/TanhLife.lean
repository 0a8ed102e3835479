import Verif.Model.Glm

/-! # The setters and getters of `MLPPTanhReg` (modules/tanh_reg/tanh_reg.cpp); histories of calls

`set_output_set` and `get_output_set` are in Model/Glm.lean. -/

namespace Verif.TanhReg
noncomputable section
open Glm

/-- `MLPPTanhReg()`, tanh_reg.cpp:351-359. -/
def blank : M ℝ Glm := do
  let z ← newVec
  let y_hat ← newVec
  let weights ← newVec
  pure ⟨true, none, none, some z, some y_hat, some weights, 0, .none, 0, 0, 0, 0⟩

/-- `set_input_set(val)`, tanh_reg.cpp:43-45. -/
def set_input_set (s : Glm) (val : Ref) : Glm := { s with input_set := val }
/-- `set_reg(val)`, tanh_reg.cpp:57-59. -/
def set_reg (s : Glm) (val : Reg.Kind) : Glm := { s with reg := val }
/-- `set_lambda(val)`, tanh_reg.cpp:64-66. -/
def set_lambda (s : Glm) (val : ℝ) : Glm := { s with lambda := val }
/-- `set_alpha(val)`, tanh_reg.cpp:71-73. -/
def set_alpha (s : Glm) (val : ℝ) : Glm := { s with alpha := val }
/-- `data_z_set(val)`, tanh_reg.cpp:78-84. -/
def data_z_set (s : Glm) (val : Ref) : Glm := if val.isNone then s else { s with z := val }
/-- `data_y_hat_set(val)`, tanh_reg.cpp:89-95. -/
def data_y_hat_set (s : Glm) (val : Ref) : Glm := if val.isNone then s else { s with y_hat := val }
/-- `data_weights_set(val)`, tanh_reg.cpp:100-106. -/
def data_weights_set (s : Glm) (val : Ref) : Glm := if val.isNone then s else { s with weights := val }
/-- `data_bias_set(val)`, tanh_reg.cpp:111-113. -/
def data_bias_set (s : Glm) (val : ℝ) : Glm := { s with bias := val }

/-- `get_input_set()`, tanh_reg.cpp:40-42. -/
def get_input_set (s : Glm) : Ref := s.input_set
/-- `get_reg()`, tanh_reg.cpp:54-56. -/
def get_reg (s : Glm) : Reg.Kind := s.reg
/-- `get_lambda()`, tanh_reg.cpp:61-63. -/
def get_lambda (s : Glm) : ℝ := s.lambda
/-- `get_alpha()`, tanh_reg.cpp:68-70. -/
def get_alpha (s : Glm) : ℝ := s.alpha
/-- `data_z_get()`, tanh_reg.cpp:75-77. -/
def data_z_get (s : Glm) : Ref := s.z
/-- `data_y_hat_get()`, tanh_reg.cpp:86-88. -/
def data_y_hat_get (s : Glm) : Ref := s.y_hat
/-- `data_weights_get()`, tanh_reg.cpp:97-99. -/
def data_weights_get (s : Glm) : Ref := s.weights
/-- `data_bias_get()`, tanh_reg.cpp:108-110. -/
def data_bias_get (s : Glm) : ℝ := s.bias

/-- A call on an object. `pick e` is the row that `train_sgd` draws in epoch `e`, `gw` and `gb` are the numbers that `initialize` draws. -/
inductive Call where
  | set_input_set (val : Ref)
  | set_output_set (val : Ref)
  | set_reg (val : Reg.Kind)
  | set_lambda (val : ℝ)
  | set_alpha (val : ℝ)
  | data_z_set (val : Ref)
  | data_y_hat_set (val : Ref)
  | data_weights_set (val : Ref)
  | data_bias_set (val : ℝ)
  | initialize_ (gw gb : Utilities.Source)
  | train_gradient_descent (learning_rate : ℝ) (max_epoch : Int)
  | train_sgd (pick : Nat → Nat) (learning_rate : ℝ) (max_epoch : Int)
  | train_mbgd (learning_rate : ℝ) (max_epoch mini_batch_size : Int)

/-- What a call does to the object. -/
def call (s : Glm) : Call → M ℝ Glm
  | .set_input_set v => pure (set_input_set s v)
  | .set_output_set v => pure (TanhReg.set_output_set s v)
  | .set_reg v => pure (set_reg s v)
  | .set_lambda v => pure (set_lambda s v)
  | .set_alpha v => pure (set_alpha s v)
  | .data_z_set v => pure (data_z_set s v)
  | .data_y_hat_set v => pure (data_y_hat_set s v)
  | .data_weights_set v => pure (data_weights_set s v)
  | .data_bias_set v => pure (data_bias_set s v)
  | .initialize_ gw gb => Glm.initialize_ gw gb s
  | .train_gradient_descent lr e => train_gradient_descent s lr e
  | .train_sgd pick lr e => train_sgd s pick lr e
  | .train_mbgd lr e b => train_mbgd s lr e b

/-- A history of calls. -/
def run (s : Glm) : List Call → M ℝ Glm
  | [] => pure s
  | c :: hist => do
    let s ← call s c
    run s hist

end
end Verif.TanhReg
