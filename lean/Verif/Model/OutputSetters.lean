import Verif.Model.Layers

/-! # The remaining setters, and the getters, of `MLPPOutputLayer` (modules/output_layer/output_layer.cpp); histories of calls -/

namespace Verif.OutputLayer
noncomputable section

/-- `set_n_hidden(val)`, output_layer.cpp:38-41. -/
def set_n_hidden (s : OutputLayer) (val : Nat) : OutputLayer := { s with n_hidden := val, initialized := false }
/-- `set_activation(val)`, output_layer.cpp:46-49. -/
def set_activation (s : OutputLayer) (val : Activation.Fn) : OutputLayer := { s with activation := val, initialized := false }
/-- `set_cost(val)`, output_layer.cpp:54-57. -/
def set_cost (s : OutputLayer) (val : Cost.Kind) : OutputLayer := { s with cost := val, initialized := false }
/-- `set_z(val)`, output_layer.cpp:86-89. -/
def set_z (s : OutputLayer) (val : Ref) : OutputLayer := { s with z := val, initialized := false }
/-- `set_a(val)`, output_layer.cpp:94-97. -/
def set_a (s : OutputLayer) (val : Ref) : OutputLayer := { s with a := val, initialized := false }
/-- `set_z_test(val)`, output_layer.cpp:102-105. -/
def set_z_test (s : OutputLayer) (val : ℝ) : OutputLayer := { s with z_test := val, initialized := false }
/-- `set_a_test(val)`, output_layer.cpp:110-113. -/
def set_a_test (s : OutputLayer) (val : ℝ) : OutputLayer := { s with a_test := val, initialized := false }
/-- `set_reg(val)`, output_layer.cpp:126-128. This setter, alone, does not ask for an initialisation. -/
def set_reg (s : OutputLayer) (val : Reg.Kind) : OutputLayer := { s with reg := val }
/-- `set_lambda(val)`, output_layer.cpp:133-136. -/
def set_lambda (s : OutputLayer) (val : ℝ) : OutputLayer := { s with lambda := val, initialized := false }
/-- `set_alpha(val)`, output_layer.cpp:141-144. -/
def set_alpha (s : OutputLayer) (val : ℝ) : OutputLayer := { s with alpha := val, initialized := false }
/-- `set_weight_init(val)`, output_layer.cpp:149-152. -/
def set_weight_init (s : OutputLayer) (val : Utilities.Kind) : OutputLayer := { s with weight_init := val, initialized := false }

/-- `get_n_hidden()`, output_layer.cpp:35-37. -/
def get_n_hidden (s : OutputLayer) : Nat := s.n_hidden
/-- `get_activation()`, output_layer.cpp:43-45. -/
def get_activation (s : OutputLayer) : Activation.Fn := s.activation
/-- `get_cost()`, output_layer.cpp:51-53. -/
def get_cost (s : OutputLayer) : Cost.Kind := s.cost
/-- `get_input()`, output_layer.cpp:59-61. -/
def get_input (s : OutputLayer) : Ref := s.input
/-- `get_weights()`, output_layer.cpp:67-69. -/
def get_weights (s : OutputLayer) : Ref := s.weights
/-- `get_bias()`, output_layer.cpp:75-77. -/
def get_bias (s : OutputLayer) : ℝ := s.bias
/-- `get_z()`, output_layer.cpp:83-85. -/
def get_z (s : OutputLayer) : Ref := s.z
/-- `get_a()`, output_layer.cpp:91-93. -/
def get_a (s : OutputLayer) : Ref := s.a
/-- `get_z_test()`, output_layer.cpp:99-101. -/
def get_z_test (s : OutputLayer) : ℝ := s.z_test
/-- `get_a_test()`, output_layer.cpp:107-109. -/
def get_a_test (s : OutputLayer) : ℝ := s.a_test
/-- `get_delta()`, output_layer.cpp:115-117. -/
def get_delta (s : OutputLayer) : Ref := s.delta
/-- `get_reg()`, output_layer.cpp:123-125. -/
def get_reg (s : OutputLayer) : Reg.Kind := s.reg
/-- `get_lambda()`, output_layer.cpp:130-132. -/
def get_lambda (s : OutputLayer) : ℝ := s.lambda
/-- `get_alpha()`, output_layer.cpp:138-140. -/
def get_alpha (s : OutputLayer) : ℝ := s.alpha
/-- `get_weight_init()`, output_layer.cpp:146-148. -/
def get_weight_init (s : OutputLayer) : Utilities.Kind := s.weight_init
/-- `is_initialized()`, output_layer.cpp:154-156. -/
def is_initialized (s : OutputLayer) : Bool := s.initialized

/-- A call on an output layer: of a setter other than that of the weights (the layer writes to the vector it is given), or of `initialize`, `forward_pass` or
`test`, with the random numbers that are drawn if the call initialises. -/
inductive Call where
  | set_n_hidden (val : Nat)
  | set_activation (val : Activation.Fn)
  | set_cost (val : Cost.Kind)
  | set_input (val : Ref)
  | set_bias (val : ℝ)
  | set_z (val : Ref)
  | set_a (val : Ref)
  | set_z_test (val : ℝ)
  | set_a_test (val : ℝ)
  | set_delta (val : Ref)
  | set_reg (val : Reg.Kind)
  | set_lambda (val : ℝ)
  | set_alpha (val : ℝ)
  | set_weight_init (val : Utilities.Kind)
  | initialize_ (gw gb : Utilities.Source)
  | forward_pass (gw gb : Utilities.Source)
  | test (x : Ref) (gw gb : Utilities.Source)

/-- What a call does to the layer. -/
def call (s : OutputLayer) : Call → M ℝ OutputLayer
  | .set_n_hidden v => pure (OutputLayer.set_n_hidden s v)
  | .set_activation v => pure (OutputLayer.set_activation s v)
  | .set_cost v => pure (OutputLayer.set_cost s v)
  | .set_input v => pure (OutputLayer.set_input s v)
  | .set_bias v => pure (OutputLayer.set_bias s v)
  | .set_z v => pure (OutputLayer.set_z s v)
  | .set_a v => pure (OutputLayer.set_a s v)
  | .set_z_test v => pure (OutputLayer.set_z_test s v)
  | .set_a_test v => pure (OutputLayer.set_a_test s v)
  | .set_delta v => pure (OutputLayer.set_delta s v)
  | .set_reg v => pure (OutputLayer.set_reg s v)
  | .set_lambda v => pure (OutputLayer.set_lambda s v)
  | .set_alpha v => pure (OutputLayer.set_alpha s v)
  | .set_weight_init v => pure (OutputLayer.set_weight_init s v)
  | .initialize_ gw gb => OutputLayer.initialize_ gw gb s
  | .forward_pass gw gb => OutputLayer.forward_pass gw gb s
  | .test x gw gb => OutputLayer.test gw gb s x

/-- A history of calls. -/
def run (s : OutputLayer) : List Call → M ℝ OutputLayer
  | [] => pure s
  | c :: hist => do
    let s ← call s c
    run s hist

end
end Verif.OutputLayer
