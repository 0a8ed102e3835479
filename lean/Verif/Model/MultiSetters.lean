import Verif.Model.Mann

/-! # The remaining setters, and the getters, of `MLPPMultiOutputLayer` (modules/multi_output_layer/multi_output_layer.cpp); histories of calls -/

namespace Verif.MultiOutputLayer
noncomputable section

/-- `set_n_output(val)`, multi_output_layer.cpp:38-40. -/
def set_n_output (s : MultiOutputLayer) (val : Nat) : MultiOutputLayer := { s with n_output := val }
/-- `set_n_hidden(val)`, multi_output_layer.cpp:45-47. -/
def set_n_hidden (s : MultiOutputLayer) (val : Nat) : MultiOutputLayer := { s with n_hidden := val }
/-- `set_activation(val)`, multi_output_layer.cpp:52-54. -/
def set_activation (s : MultiOutputLayer) (val : Activation.Fn) : MultiOutputLayer := { s with activation := val }
/-- `set_cost(val)`, multi_output_layer.cpp:59-61. -/
def set_cost (s : MultiOutputLayer) (val : Cost.Kind) : MultiOutputLayer := { s with cost := val }
/-- `set_z(val)`, multi_output_layer.cpp:87-89. -/
def set_z (s : MultiOutputLayer) (val : Ref) : MultiOutputLayer := { s with z := val }
/-- `set_a(val)`, multi_output_layer.cpp:94-96. -/
def set_a (s : MultiOutputLayer) (val : Ref) : MultiOutputLayer := { s with a := val }
/-- `set_z_test(val)`, multi_output_layer.cpp:101-103. -/
def set_z_test (s : MultiOutputLayer) (val : Ref) : MultiOutputLayer := { s with z_test := val }
/-- `set_a_test(val)`, multi_output_layer.cpp:108-110. -/
def set_a_test (s : MultiOutputLayer) (val : Ref) : MultiOutputLayer := { s with a_test := val }
/-- `set_reg(val)`, multi_output_layer.cpp:122-124. -/
def set_reg (s : MultiOutputLayer) (val : Reg.Kind) : MultiOutputLayer := { s with reg := val }
/-- `set_lambda(val)`, multi_output_layer.cpp:129-131. -/
def set_lambda (s : MultiOutputLayer) (val : ℝ) : MultiOutputLayer := { s with lambda := val }
/-- `set_alpha(val)`, multi_output_layer.cpp:136-138. -/
def set_alpha (s : MultiOutputLayer) (val : ℝ) : MultiOutputLayer := { s with alpha := val }
/-- `set_weight_init(val)`, multi_output_layer.cpp:143-145. -/
def set_weight_init (s : MultiOutputLayer) (val : Utilities.Kind) : MultiOutputLayer := { s with weight_init := val }

/-- `get_n_output()`, multi_output_layer.cpp:35-37. -/
def get_n_output (s : MultiOutputLayer) : Nat := s.n_output
/-- `get_n_hidden()`, multi_output_layer.cpp:42-44. -/
def get_n_hidden (s : MultiOutputLayer) : Nat := s.n_hidden
/-- `get_activation()`, multi_output_layer.cpp:49-51. -/
def get_activation (s : MultiOutputLayer) : Activation.Fn := s.activation
/-- `get_cost()`, multi_output_layer.cpp:56-58. -/
def get_cost (s : MultiOutputLayer) : Cost.Kind := s.cost
/-- `get_input()`, multi_output_layer.cpp:63-65. -/
def get_input (s : MultiOutputLayer) : Ref := s.input
/-- `get_weights()`, multi_output_layer.cpp:70-72. -/
def get_weights (s : MultiOutputLayer) : Ref := s.weights
/-- `get_bias()`, multi_output_layer.cpp:77-79. -/
def get_bias (s : MultiOutputLayer) : Ref := s.bias
/-- `get_z()`, multi_output_layer.cpp:84-86. -/
def get_z (s : MultiOutputLayer) : Ref := s.z
/-- `get_a()`, multi_output_layer.cpp:91-93. -/
def get_a (s : MultiOutputLayer) : Ref := s.a
/-- `get_z_test()`, multi_output_layer.cpp:98-100. -/
def get_z_test (s : MultiOutputLayer) : Ref := s.z_test
/-- `get_a_test()`, multi_output_layer.cpp:105-107. -/
def get_a_test (s : MultiOutputLayer) : Ref := s.a_test
/-- `get_delta()`, multi_output_layer.cpp:112-114. -/
def get_delta (s : MultiOutputLayer) : Ref := s.delta
/-- `get_reg()`, multi_output_layer.cpp:119-121. -/
def get_reg (s : MultiOutputLayer) : Reg.Kind := s.reg
/-- `get_lambda()`, multi_output_layer.cpp:126-128. -/
def get_lambda (s : MultiOutputLayer) : ℝ := s.lambda
/-- `get_alpha()`, multi_output_layer.cpp:133-135. -/
def get_alpha (s : MultiOutputLayer) : ℝ := s.alpha
/-- `get_weight_init()`, multi_output_layer.cpp:140-142. -/
def get_weight_init (s : MultiOutputLayer) : Utilities.Kind := s.weight_init

/-- A call on a layer with several outputs: of a setter, or of `forward_pass` or `test`. -/
inductive Call where
  | set_n_output (val : Nat)
  | set_n_hidden (val : Nat)
  | set_activation (val : Activation.Fn)
  | set_cost (val : Cost.Kind)
  | set_input (val : Ref)
  | set_weights (val : Ref)
  | set_bias (val : Ref)
  | set_z (val : Ref)
  | set_a (val : Ref)
  | set_z_test (val : Ref)
  | set_a_test (val : Ref)
  | set_delta (val : Ref)
  | set_reg (val : Reg.Kind)
  | set_lambda (val : ℝ)
  | set_alpha (val : ℝ)
  | set_weight_init (val : Utilities.Kind)
  | forward_pass
  | test (x : Ref)

/-- What a call does to the layer. -/
def call (s : MultiOutputLayer) : Call → M ℝ MultiOutputLayer
  | .set_n_output v => pure (MultiOutputLayer.set_n_output s v)
  | .set_n_hidden v => pure (MultiOutputLayer.set_n_hidden s v)
  | .set_activation v => pure (MultiOutputLayer.set_activation s v)
  | .set_cost v => pure (MultiOutputLayer.set_cost s v)
  | .set_input v => pure (MultiOutputLayer.set_input s v)
  | .set_weights v => pure (MultiOutputLayer.set_weights s v)
  | .set_bias v => pure (MultiOutputLayer.set_bias s v)
  | .set_z v => pure (MultiOutputLayer.set_z s v)
  | .set_a v => pure (MultiOutputLayer.set_a s v)
  | .set_z_test v => pure (MultiOutputLayer.set_z_test s v)
  | .set_a_test v => pure (MultiOutputLayer.set_a_test s v)
  | .set_delta v => pure (MultiOutputLayer.set_delta s v)
  | .set_reg v => pure (MultiOutputLayer.set_reg s v)
  | .set_lambda v => pure (MultiOutputLayer.set_lambda s v)
  | .set_alpha v => pure (MultiOutputLayer.set_alpha s v)
  | .set_weight_init v => pure (MultiOutputLayer.set_weight_init s v)
  | .forward_pass => MultiOutputLayer.forward_pass s
  | .test x => MultiOutputLayer.test s x

/-- A history of calls. -/
def run (s : MultiOutputLayer) : List Call → M ℝ MultiOutputLayer
  | [] => pure s
  | c :: hist => do
    let s ← call s c
    run s hist

end
end Verif.MultiOutputLayer
