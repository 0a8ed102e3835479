import Verif.Model.Softmax
import Verif.Model.Glm
import Verif.Model.HandleM

/-!
# `MLPPHiddenLayer`, `MLPPOutputLayer`, `MLPPMultiOutputLayer` (modules/hidden_layer, modules/output_layer, modules/multi_output_layer)

An object is a structure of its fields. The random numbers drawn by an initialisation are parameters. The number of units is a natural number; a
negative one would make the resizing fail. Not modelled: the binding of methods.
-/

namespace Verif
noncomputable section

/-- The fields of hidden_layer.h:114-137. -/
structure HiddenLayer where
  n_hidden : Nat
  activation : Activation.Fn
  input : Ref
  weights : Ref
  bias : Ref
  z : Ref
  a : Ref
  z_test : Ref
  a_test : Ref
  delta : Ref
  reg : Reg.Kind
  lambda : ℝ
  alpha : ℝ
  weight_init : Utilities.Kind
  initialized : Bool

namespace HiddenLayer

/-- `set_n_hidden(val)`, hidden_layer.cpp:40-43. -/
def set_n_hidden (s : HiddenLayer) (val : Nat) : HiddenLayer := { s with n_hidden := val, initialized := false }
/-- `set_activation(val)`, hidden_layer.cpp:48-51. -/
def set_activation (s : HiddenLayer) (val : Activation.Fn) : HiddenLayer := { s with activation := val, initialized := false }
/-- `set_input(val)`, hidden_layer.cpp:56-59. -/
def set_input (s : HiddenLayer) (val : Ref) : HiddenLayer := { s with input := val, initialized := false }
/-- `set_weights(val)`, hidden_layer.cpp:64-67. -/
def set_weights (s : HiddenLayer) (val : Ref) : HiddenLayer := { s with weights := val, initialized := false }
/-- `set_bias(val)`, hidden_layer.cpp:72-75. -/
def set_bias (s : HiddenLayer) (val : Ref) : HiddenLayer := { s with bias := val, initialized := false }
/-- `set_delta(val)`, hidden_layer.cpp:112-115. -/
def set_delta (s : HiddenLayer) (val : Ref) : HiddenLayer := { s with delta := val, initialized := false }
/-- `set_lambda(val)`, hidden_layer.cpp:128-131. -/
def set_lambda (s : HiddenLayer) (val : ℝ) : HiddenLayer := { s with lambda := val, initialized := false }

/-- `initialize()`, hidden_layer.cpp:152-166. -/
def initialize_ (gw gb : Utilities.Source) (s : HiddenLayer) : M ℝ HiddenLayer :=
  if s.initialized then pure s else do
    let size ← Hd.sizem s.input
    Hd.resizem s.weights ⟨s.n_hidden, size.x, 1⟩
    Hd.resizev s.bias s.n_hidden
    Utilities.weight_initializationm gw s.weights.mat s.weight_init
    Utilities.bias_initializationv gb s.bias.vec
    pure { s with initialized := true }

/-- `forward_pass()`, hidden_layer.cpp:168-179. -/
def forward_pass (gw gb : Utilities.Source) (s : HiddenLayer) : M ℝ HiddenLayer := do
  let s ← initialize_ gw gb s
  Hd.multb s.z s.input s.weights
  Hd.add_vec s.z s.bias
  let a ← Activation.normMatrix s.activation s.z
  pure { s with a := a }

/-- `test(x)`, hidden_layer.cpp:181-192. -/
def test (gw gb : Utilities.Source) (s : HiddenLayer) (x : Ref) : M ℝ HiddenLayer := do
  let s ← initialize_ gw gb s
  let t ← Hd.transposen s.weights
  let z ← Hd.mult_vec t x
  Hd.add z s.bias
  let a ← Activation.normVector s.activation z
  pure { s with z_test := z, a_test := a }

/-- `MLPPHiddenLayer(n_hidden, activation, input, weight_init, reg, lambda, alpha)`, hidden_layer.cpp:194-221. -/
def create (gw gb : Utilities.Source) (n_hidden : Nat) (activation : Activation.Fn) (input : Ref) (weight_init : Utilities.Kind) (reg : Reg.Kind)
    (lambda alpha : ℝ) : M ℝ HiddenLayer := do
  let z ← newMat
  let a ← newMat
  let z_test ← newVec
  let a_test ← newVec
  let delta ← newMat
  let weights ← newMat
  let bias ← newVec
  initialize_ gw gb ⟨n_hidden, activation, input, some weights, some bias, some z, some a, some z_test, some a_test, some delta, reg, lambda, alpha,
    weight_init, false⟩

end HiddenLayer

/-- The fields of output_layer.h:114-138. -/
structure OutputLayer where
  n_hidden : Nat
  activation : Activation.Fn
  cost : Cost.Kind
  input : Ref
  weights : Ref
  bias : ℝ
  z : Ref
  a : Ref
  z_test : ℝ
  a_test : ℝ
  delta : Ref
  reg : Reg.Kind
  lambda : ℝ
  alpha : ℝ
  weight_init : Utilities.Kind
  initialized : Bool

namespace OutputLayer

/-- `set_input(val)`, output_layer.cpp:62-65. -/
def set_input (s : OutputLayer) (val : Ref) : OutputLayer := { s with input := val, initialized := false }
/-- `set_weights(val)`, output_layer.cpp:70-73. -/
def set_weights (s : OutputLayer) (val : Ref) : OutputLayer := { s with weights := val, initialized := false }
/-- `set_bias(val)`, output_layer.cpp:78-81. -/
def set_bias (s : OutputLayer) (val : ℝ) : OutputLayer := { s with bias := val, initialized := false }
/-- `set_delta(val)`, output_layer.cpp:118-121. -/
def set_delta (s : OutputLayer) (val : Ref) : OutputLayer := { s with delta := val, initialized := false }

/-- `initialize()`, output_layer.cpp:157-170. -/
def initialize_ (gw gb : Utilities.Source) (s : OutputLayer) : M ℝ OutputLayer :=
  if s.initialized then pure s else do
    Hd.resizev s.weights s.n_hidden
    Utilities.weight_initializationv gw s.weights.vec s.weight_init
    let b ← Utilities.bias_initializationr gb
    pure { s with bias := b, initialized := true }

/-- `forward_pass()`, output_layer.cpp:172-181. -/
def forward_pass (gw gb : Utilities.Source) (s : OutputLayer) : M ℝ OutputLayer := do
  let s ← initialize_ gw gb s
  let p ← Hd.mult_vec s.input s.weights
  let z ← Hd.scalar_addn p s.bias
  let a ← Activation.normVector s.activation z
  pure { s with z := z, a := a }

/-- `test(x)`, output_layer.cpp:183-192. -/
def test (gw gb : Utilities.Source) (s : OutputLayer) (x : Ref) : M ℝ OutputLayer := do
  let s ← initialize_ gw gb s
  let d ← Hd.dot s.weights x
  let z := d + s.bias
  pure { s with z_test := z, a_test := Activation.normReal s.activation z }

/-- `MLPPOutputLayer(n_hidden, activation, cost, input, weight_init, reg, lambda, alpha)`, output_layer.cpp:194-227. -/
def create (gw gb : Utilities.Source) (n_hidden : Nat) (activation : Activation.Fn) (cost : Cost.Kind) (input : Ref) (weight_init : Utilities.Kind)
    (reg : Reg.Kind) (lambda alpha : ℝ) : M ℝ OutputLayer := do
  let z ← newVec
  let a ← newVec
  let delta ← newVec
  let weights ← newVec
  initialize_ gw gb ⟨n_hidden, activation, cost, input, some weights, 0, some z, some a, 0, 0, some delta, reg, lambda, alpha, weight_init, false⟩

end OutputLayer

/-- The fields of multi_output_layer.h:114-137. -/
structure MultiOutputLayer where
  n_output : Nat
  n_hidden : Nat
  activation : Activation.Fn
  cost : Cost.Kind
  input : Ref
  weights : Ref
  bias : Ref
  z : Ref
  a : Ref
  z_test : Ref
  a_test : Ref
  delta : Ref
  reg : Reg.Kind
  lambda : ℝ
  alpha : ℝ
  weight_init : Utilities.Kind

namespace MultiOutputLayer

/-- `set_input(val)`, multi_output_layer.cpp:66-68. -/
def set_input (s : MultiOutputLayer) (val : Ref) : MultiOutputLayer := { s with input := val }
/-- `set_weights(val)`, multi_output_layer.cpp:73-75. -/
def set_weights (s : MultiOutputLayer) (val : Ref) : MultiOutputLayer := { s with weights := val }
/-- `set_bias(val)`, multi_output_layer.cpp:80-82. -/
def set_bias (s : MultiOutputLayer) (val : Ref) : MultiOutputLayer := { s with bias := val }

/-- `forward_pass()`, multi_output_layer.cpp:147-152. -/
def forward_pass (s : MultiOutputLayer) : M ℝ MultiOutputLayer := do
  let p ← Hd.multn s.input s.weights
  let z ← Hd.add_vecn p s.bias
  let a ← Activation.normMatrix s.activation z
  pure { s with z := z, a := a }

/-- `test(x)`, multi_output_layer.cpp:154-159. -/
def test (s : MultiOutputLayer) (x : Ref) : M ℝ MultiOutputLayer := do
  let t ← Hd.transposen s.weights
  let p ← Hd.mult_vec t x
  let z ← Hd.addn p s.bias
  let a ← Activation.normVector s.activation z
  pure { s with z_test := z, a_test := a }

/-- `MLPPMultiOutputLayer(n_output, n_hidden, activation, cost, input, weight_init, reg, lambda, alpha)`, multi_output_layer.cpp:161-194. -/
def create (gw gb : Utilities.Source) (n_output n_hidden : Nat) (activation : Activation.Fn) (cost : Cost.Kind) (input : Ref)
    (weight_init : Utilities.Kind) (reg : Reg.Kind) (lambda alpha : ℝ) : M ℝ MultiOutputLayer := do
  let z ← newMat
  let a ← newMat
  let z_test ← newVec
  let a_test ← newVec
  let delta ← newMat
  let weights ← newMat
  let bias ← newVec
  Hd.resizem (some weights) ⟨n_output, n_hidden, 1⟩
  Hd.resizev (some bias) n_output
  Utilities.weight_initializationm gw (some weights.id) weight_init
  Utilities.bias_initializationv gb (some bias.id)
  pure ⟨n_output, n_hidden, activation, cost, input, some weights, some bias, some z, some a, some z_test, some a_test, some delta, reg, lambda,
    alpha, weight_init⟩

end MultiOutputLayer
end
end Verif
