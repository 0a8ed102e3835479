import Verif.Model.Ann

/-!
# `MLPPMANN` (modules/mann)

A network with several outputs. As in `MLPPANN` the layers are objects no one else refers to, and the random numbers drawn by a pass through the
network are a parameter: for the hidden layer `i` those for the weights and those for the biases (the output layer draws only when it is made). Not
modelled: the printing of costs (`ui`), `save` (it does nothing), the binding of methods. `fuel` bounds the recursion of the activation functions that
call themselves (see Model/Softmax.lean).
-/

namespace Verif
noncomputable section

/-- The fields of mann.h:88-99. -/
structure Mann where
  input_set : Ref
  output_set : Ref
  y_hat : Ref
  network : List HiddenLayer
  output_layer : Option MultiOutputLayer
  n : Nat
  k : Nat
  n_output : Nat
  initialized : Bool

namespace MultiOutputLayer
/-- `set_delta(val)`, multi_output_layer.cpp:115-117. -/
def set_delta (s : MultiOutputLayer) (val : Ref) : MultiOutputLayer := { s with delta := val }
end MultiOutputLayer

namespace Mann
open Ann (Draws layersPass layersTest lastOut lastUnits regTerms)
open Glm (epochs)

/-- `_output_layer->…`: null until `add_output_layer`. -/
def output (s : Mann) : M ℝ MultiOutputLayer :=
  match s.output_layer with
  | some o => pure o
  | none => ub

/-- The pass through all layers of `model_set_test`, mann.cpp:67-86, and `forward_pass`, 292-311; the loops over the hidden layers are those of
`MLPPANN`. -/
def pass (g : Draws) (s : Mann) (X : Ref) : M ℝ (Mann × Ref) := do
  let r ← layersPass g 0 X s.network
  let o ← output s
  let o ← MultiOutputLayer.forward_pass (MultiOutputLayer.set_input o r.2)
  pure ({ s with network := r.1, output_layer := some o }, o.a)

/-- `model_set_test(X)`, mann.cpp:64-89: null unless initialised. -/
def model_set_test (g : Draws) (s : Mann) (X : Ref) : M ℝ (Mann × Ref) :=
  if s.initialized then pass g s X else pure (s, none)

/-- `model_test(x)`, mann.cpp:91-112. -/
def model_test (g : Draws) (s : Mann) (x : Ref) : M ℝ (Mann × Ref) :=
  if s.initialized then do
    let r ← layersTest g 0 x s.network
    let o ← output s
    let o ← MultiOutputLayer.test o r.2
    pure ({ s with network := r.1, output_layer := some o }, o.a_test)
  else pure (s, none)

/-- `forward_pass()`, mann.cpp:291-314. -/
def forward_pass (g : Draws) (s : Mann) : M ℝ Mann := do
  let r ← pass g s s.input_set
  pure { r.1 with y_hat := r.2 }

/-- `cost(y_hat, y)`, mann.cpp:274-289; as in `MLPPANN`, the last hidden layer is left out. -/
def cost (s : Mann) (y_hat y : Ref) : M ℝ ℝ := do
  let t ← regTerms s.network 0
  let o ← output s
  let c ← Cost.run_cost_norm_matrix o.cost y_hat y
  let r ← Reg.reg_termm o.weights o.lambda o.alpha o.reg
  pure (c + t + r)

/-- The error of the output layer, mann.cpp:129-136. -/
def outDelta (fuel : Nat) (o : MultiOutputLayer) (y_hat y : Ref) : M ℝ Ref :=
  match o.activation with
  | .softmax => Hd.subnm y_hat y
  | f => do
    let r1 ← Cost.run_cost_deriv_matrix o.cost y_hat y
    let r2 ← Activation.derivMatrix fuel f o.z
    Hd.hadamard_productnm r1 r2

/-- The update of the output layer, mann.cpp:129-144. -/
def stepOut (fuel : Nat) (o : MultiOutputLayer) (y_hat y : Ref) (rate : ℝ) : M ℝ MultiOutputLayer := do
  let d ← outDelta fuel o y_hat y
  let o := MultiOutputLayer.set_delta o d
  let t ← Hd.transposen o.input
  let g ← Hd.multn t o.delta
  let g ← Hd.scalar_multiplynm g rate
  let w ← Hd.subnm o.weights g
  let w ← Reg.reg_weightsm w o.lambda o.alpha o.reg
  let o := MultiOutputLayer.set_weights o w
  let d ← Hd.scalar_multiplynm o.delta rate
  let b ← Hd.subtract_matrix_rowsn o.bias d
  pure (MultiOutputLayer.set_bias o b)

/-- What reaches a hidden layer from behind, mann.cpp:149, 162: from the output layer, whose weights have already been changed, or from the next hidden
layer, whose weights have been changed and are not transposed. -/
def signal (o : MultiOutputLayer) : List HiddenLayer → M ℝ Ref
  | [] => do
    let t ← Hd.transposen o.weights
    Hd.multn o.delta t
  | nx :: _ => Hd.multn nx.delta nx.weights

/-- The update of one hidden layer, mann.cpp:149-156 and 162-168; `ls` are the layers after it. -/
def stepOf (fuel : Nat) (o : MultiOutputLayer) (rate : ℝ) (l : HiddenLayer) (ls : List HiddenLayer) : M ℝ HiddenLayer := do
  let e ← signal o ls
  let f ← Activation.derivMatrix fuel l.activation l.z
  let d ← Hd.hadamard_productnm e f
  let l := HiddenLayer.set_delta l d
  let t ← Hd.transposen l.input
  let g ← Hd.multn t l.delta
  let g ← Hd.scalar_multiplynm g rate
  let w ← Hd.subnm l.weights g
  let w ← Reg.reg_weightsm w l.lambda l.alpha l.reg
  let l := HiddenLayer.set_weights l w
  let d ← Hd.scalar_multiplynm l.delta rate
  let b ← Hd.subtract_matrix_rowsn l.bias d
  pure (HiddenLayer.set_bias l b)

/-- The updates of the hidden layers, the last first, mann.cpp:146-170. -/
def layersStep (fuel : Nat) (o : MultiOutputLayer) (rate : ℝ) : List HiddenLayer → M ℝ (List HiddenLayer)
  | [] => pure []
  | l :: ls => do
    let ls ← layersStep fuel o rate ls
    let l ← stepOf fuel o rate l ls
    pure (l :: ls)

/-- The body of the loop of `gradient_descent`, mann.cpp:126-172. -/
def gdBody (fuel : Nat) (g : Nat → Draws) (learning_rate : ℝ) (epoch : Nat) (s : Mann) : M ℝ Mann := do
  let _ ← cost s s.y_hat s.output_set
  let o ← output s
  let o ← stepOut fuel o s.y_hat s.output_set (learning_rate / s.n)
  let ls ← layersStep fuel o (learning_rate / s.n) s.network
  forward_pass (g epoch) { s with network := ls, output_layer := some o }

/-- `gradient_descent(learning_rate, max_epoch, ui)`, mann.cpp:114-196. The first pass draws `g 0`, the pass that ends epoch `e` draws `g e`. -/
def gradient_descent (fuel : Nat) (g : Nat → Draws) (s : Mann) (learning_rate : ℝ) (max_epoch : Int) : M ℝ Mann :=
  if s.initialized then do
    let s ← forward_pass (g 0) s
    epochs max_epoch s (gdBody fuel g learning_rate)
  else pure s

/-- `score()`, mann.cpp:198-206. -/
def score (g : Draws) (s : Mann) : M ℝ (Mann × ℝ) :=
  if s.initialized then do
    let s ← forward_pass g s
    let r ← Utilities.performance_mat s.y_hat.mat s.output_set.mat
    pure (s, r)
  else pure (s, 0)

/-- `add_layer(n_hidden, activation, weight_init, reg, lambda, alpha)`, mann.cpp:225-233. -/
def add_layer (gw gb : Utilities.Source) (s : Mann) (n_hidden : Nat) (activation : Activation.Fn) (weight_init : Utilities.Kind) (reg : Reg.Kind)
    (lambda alpha : ℝ) : M ℝ Mann := do
  let l ← HiddenLayer.create gw gb n_hidden activation (lastOut s.input_set s.network) weight_init reg lambda alpha
  let l ← HiddenLayer.forward_pass gw gb l
  pure { s with network := s.network ++ [l] }

/-- `add_output_layer(activation, loss, weight_init, reg, lambda, alpha)`, mann.cpp:235-241. -/
def add_output_layer (gw gb : Utilities.Source) (s : Mann) (activation : Activation.Fn) (loss : Cost.Kind) (weight_init : Utilities.Kind)
    (reg : Reg.Kind) (lambda alpha : ℝ) : M ℝ Mann := do
  let o ← MultiOutputLayer.create gw gb s.n_output (lastUnits s.k s.network) activation loss (lastOut s.input_set s.network) weight_init reg lambda alpha
  pure { s with output_layer := some o }

/-- `initialize()`, mann.cpp:247-255. -/
def initialize_ (s : Mann) : Mann := { s with initialized := true }

/-- `MLPPMANN(p_input_set, p_output_set)`, mann.cpp:257-265. -/
def create (input_set output_set : Ref) : M ℝ Mann := do
  let s ← Hd.sizem input_set
  let t ← Hd.sizem output_set
  pure ⟨input_set, output_set, none, [], none, s.y, s.x, t.x, true⟩

/-- `MLPPMANN()`, mann.cpp:267-269: the numbers `n`, `k`, `n_output` are whatever the memory contained. -/
def create_empty (n k n_output : Nat) : Mann := ⟨none, none, none, [], none, n, k, n_output, false⟩

end Mann
end
end Verif
