import Verif.Model.Layers

/-! # The remaining setters, and the getters, of `MLPPHiddenLayer` (modules/hidden_layer/hidden_layer.cpp); histories of calls -/

namespace Verif.HiddenLayer
noncomputable section

/-- `set_z(val)`, hidden_layer.cpp:80-83. -/
def set_z (s : HiddenLayer) (val : Ref) : HiddenLayer := { s with z := val, initialized := false }
/-- `set_a(val)`, hidden_layer.cpp:88-91. -/
def set_a (s : HiddenLayer) (val : Ref) : HiddenLayer := { s with a := val, initialized := false }
/-- `set_z_test(val)`, hidden_layer.cpp:96-99. -/
def set_z_test (s : HiddenLayer) (val : Ref) : HiddenLayer := { s with z_test := val, initialized := false }
/-- `set_a_test(val)`, hidden_layer.cpp:104-107. -/
def set_a_test (s : HiddenLayer) (val : Ref) : HiddenLayer := { s with a_test := val, initialized := false }
/-- `set_reg(val)`, hidden_layer.cpp:120-123. -/
def set_reg (s : HiddenLayer) (val : Reg.Kind) : HiddenLayer := { s with reg := val, initialized := false }
/-- `set_alpha(val)`, hidden_layer.cpp:136-139. -/
def set_alpha (s : HiddenLayer) (val : ℝ) : HiddenLayer := { s with alpha := val, initialized := false }
/-- `set_weight_init(val)`, hidden_layer.cpp:144-147. -/
def set_weight_init (s : HiddenLayer) (val : Utilities.Kind) : HiddenLayer := { s with weight_init := val, initialized := false }

/-- `get_n_hidden()`, hidden_layer.cpp:37-39. -/
def get_n_hidden (s : HiddenLayer) : Nat := s.n_hidden
/-- `get_activation()`, hidden_layer.cpp:45-47. -/
def get_activation (s : HiddenLayer) : Activation.Fn := s.activation
/-- `get_input()`, hidden_layer.cpp:53-55. -/
def get_input (s : HiddenLayer) : Ref := s.input
/-- `get_weights()`, hidden_layer.cpp:61-63. -/
def get_weights (s : HiddenLayer) : Ref := s.weights
/-- `get_bias()`, hidden_layer.cpp:69-71. -/
def get_bias (s : HiddenLayer) : Ref := s.bias
/-- `get_z()`, hidden_layer.cpp:77-79. -/
def get_z (s : HiddenLayer) : Ref := s.z
/-- `get_a()`, hidden_layer.cpp:85-87. -/
def get_a (s : HiddenLayer) : Ref := s.a
/-- `get_z_test()`, hidden_layer.cpp:93-95. -/
def get_z_test (s : HiddenLayer) : Ref := s.z_test
/-- `get_a_test()`, hidden_layer.cpp:101-103. -/
def get_a_test (s : HiddenLayer) : Ref := s.a_test
/-- `get_delta()`, hidden_layer.cpp:109-111. -/
def get_delta (s : HiddenLayer) : Ref := s.delta
/-- `get_reg()`, hidden_layer.cpp:117-119. -/
def get_reg (s : HiddenLayer) : Reg.Kind := s.reg
/-- `get_lambda()`, hidden_layer.cpp:125-127. -/
def get_lambda (s : HiddenLayer) : ℝ := s.lambda
/-- `get_alpha()`, hidden_layer.cpp:133-135. -/
def get_alpha (s : HiddenLayer) : ℝ := s.alpha
/-- `get_weight_init()`, hidden_layer.cpp:141-143. -/
def get_weight_init (s : HiddenLayer) : Utilities.Kind := s.weight_init
/-- `is_initialized()`, hidden_layer.cpp:149-151. -/
def is_initialized (s : HiddenLayer) : Bool := s.initialized

/-- A call on a layer: of a setter that does not replace an object the layer writes to (its weights, its biases and `z`), or of `initialize`, `forward_pass` or
`test`, with the random numbers that are drawn if the call initialises. -/
inductive Call where
  | set_n_hidden (val : Nat)
  | set_activation (val : Activation.Fn)
  | set_input (val : Ref)
  | set_a (val : Ref)
  | set_z_test (val : Ref)
  | set_a_test (val : Ref)
  | set_delta (val : Ref)
  | set_reg (val : Reg.Kind)
  | set_lambda (val : ℝ)
  | set_alpha (val : ℝ)
  | set_weight_init (val : Utilities.Kind)
  | initialize_ (gw gb : Utilities.Source)
  | forward_pass (gw gb : Utilities.Source)
  | test (x : Ref) (gw gb : Utilities.Source)

/-- What a call does to the layer. -/
def call (s : HiddenLayer) : Call → M ℝ HiddenLayer
  | .set_n_hidden v => pure (HiddenLayer.set_n_hidden s v)
  | .set_activation v => pure (HiddenLayer.set_activation s v)
  | .set_input v => pure (HiddenLayer.set_input s v)
  | .set_a v => pure (HiddenLayer.set_a s v)
  | .set_z_test v => pure (HiddenLayer.set_z_test s v)
  | .set_a_test v => pure (HiddenLayer.set_a_test s v)
  | .set_delta v => pure (HiddenLayer.set_delta s v)
  | .set_reg v => pure (HiddenLayer.set_reg s v)
  | .set_lambda v => pure (HiddenLayer.set_lambda s v)
  | .set_alpha v => pure (HiddenLayer.set_alpha s v)
  | .set_weight_init v => pure (HiddenLayer.set_weight_init s v)
  | .initialize_ gw gb => HiddenLayer.initialize_ gw gb s
  | .forward_pass gw gb => HiddenLayer.forward_pass gw gb s
  | .test x gw gb => HiddenLayer.test gw gb s x

/-- A history of calls. -/
def run (s : HiddenLayer) : List Call → M ℝ HiddenLayer
  | [] => pure s
  | c :: hist => do
    let s ← call s c
    run s hist

end
end Verif.HiddenLayer
