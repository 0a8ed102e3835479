import Verif.Model.Glm

/-! # The setters and getters of `MLPPProbitReg` (modules/probit_reg/probit_reg.cpp) -/

namespace Verif.ProbitReg
open Glm

/-- `MLPPProbitReg()`, probit_reg.cpp:388-399. The fields `initialized`, `n` and `k` are not used by this class. -/
noncomputable def blank : M ℝ Glm := do
  let z ← newVec
  let y_hat ← newVec
  let weights ← newVec
  pure ⟨true, none, none, some z, some y_hat, some weights, 0, .none, 1 / 2, 1 / 2, 0, 0⟩

/-- `set_input_set(val)`, probit_reg.cpp:43-45. -/
def set_input_set (s : Glm) (val : Ref) : Glm := { s with input_set := val }
/-- `set_output_set(val)`, probit_reg.cpp:50-52. -/
def set_output_set (s : Glm) (val : Ref) : Glm := { s with output_set := val }
/-- `set_reg(val)`, probit_reg.cpp:57-59. -/
def set_reg (s : Glm) (val : Reg.Kind) : Glm := { s with reg := val }
/-- `set_lambda(val)`, probit_reg.cpp:64-66. -/
def set_lambda (s : Glm) (val : ℝ) : Glm := { s with lambda := val }
/-- `set_alpha(val)`, probit_reg.cpp:71-73. -/
def set_alpha (s : Glm) (val : ℝ) : Glm := { s with alpha := val }
/-- `data_z_set(val)`, probit_reg.cpp:78-84. -/
def data_z_set (s : Glm) (val : Ref) : Glm := if val.isNone then s else { s with z := val }
/-- `data_y_hat_set(val)`, probit_reg.cpp:89-95. -/
def data_y_hat_set (s : Glm) (val : Ref) : Glm := if val.isNone then s else { s with y_hat := val }
/-- `data_weights_set(val)`, probit_reg.cpp:100-106. -/
def data_weights_set (s : Glm) (val : Ref) : Glm := if val.isNone then s else { s with weights := val }
/-- `data_bias_set(val)`, probit_reg.cpp:111-113. -/
def data_bias_set (s : Glm) (val : ℝ) : Glm := { s with bias := val }

/-- `get_input_set()`, probit_reg.cpp:40-42. -/
def get_input_set (s : Glm) : Ref := s.input_set
/-- `get_output_set()`, probit_reg.cpp:47-49. -/
def get_output_set (s : Glm) : Ref := s.output_set
/-- `get_reg()`, probit_reg.cpp:54-56. -/
def get_reg (s : Glm) : Reg.Kind := s.reg
/-- `get_lambda()`, probit_reg.cpp:61-63. -/
def get_lambda (s : Glm) : ℝ := s.lambda
/-- `get_alpha()`, probit_reg.cpp:68-70. -/
def get_alpha (s : Glm) : ℝ := s.alpha
/-- `data_z_get()`, probit_reg.cpp:75-77. -/
def data_z_get (s : Glm) : Ref := s.z
/-- `data_y_hat_get()`, probit_reg.cpp:86-88. -/
def data_y_hat_get (s : Glm) : Ref := s.y_hat
/-- `data_weights_get()`, probit_reg.cpp:97-99. -/
def data_weights_get (s : Glm) : Ref := s.weights
/-- `data_bias_get()`, probit_reg.cpp:108-110. -/
def data_bias_get (s : Glm) : ℝ := s.bias

/-- A call of a setter. -/
inductive Call where
  | set_input_set (val : Ref)
  | set_output_set (val : Ref)
  | set_reg (val : Reg.Kind)
  | set_lambda (val : ℝ)
  | set_alpha (val : ℝ)
  | data_z_set (val : Ref)
  | data_y_hat_set (val : Ref)
  | data_weights_set (val : Ref)
  | data_bias_set (val : ℝ)

/-- What a call does to the object. -/
def call (s : Glm) : Call → Glm
  | .set_input_set v => ProbitReg.set_input_set s v
  | .set_output_set v => ProbitReg.set_output_set s v
  | .set_reg v => ProbitReg.set_reg s v
  | .set_lambda v => ProbitReg.set_lambda s v
  | .set_alpha v => ProbitReg.set_alpha s v
  | .data_z_set v => ProbitReg.data_z_set s v
  | .data_y_hat_set v => ProbitReg.data_y_hat_set s v
  | .data_weights_set v => ProbitReg.data_weights_set s v
  | .data_bias_set v => ProbitReg.data_bias_set s v

end Verif.ProbitReg

namespace Verif

/-- `initialize()`, lin_reg.cpp:734-742: only the flag is set (the check of the data sets is a comment). -/
def LinReg.initialize_ (s : Glm) : Glm := { s with initialized := true }

/-- `MLPPLogReg()`, log_reg.cpp:330-332: the other fields are not initialised, the handles are null. -/
def LogReg.blank (s : Glm) : Glm := { s with initialized := false, input_set := none, output_set := none, y_hat := none, weights := none }

/-- `initialize()`, log_reg.cpp:297-305: only the flag is set (the check of the data sets is a comment). -/
def LogReg.initialize_ (s : Glm) : Glm := { s with initialized := true }

end Verif
