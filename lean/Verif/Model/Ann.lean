import Verif.Model.Layers
import Verif.Model.LinAlgMatrix

/-!
# `MLPPANN` (modules/ann)

An object is a structure of its fields. The layers are objects which no one else refers to (only `add_layer` and `add_output_layer` make them, and no
method hands them out), so the network is a list of records. The random numbers drawn by a pass through the network are a parameter: for the hidden
layer `i`, and for the output layer, which comes after the last, those for the weights and those for the biases. Not modelled: the printing of costs
(`print_ui`), `save` (it does nothing), the binding of methods; the constructor without arguments, which leaves the numbers of samples and inputs
uninitialised. `fuel` bounds the recursion of the activation functions that call themselves (see Model/Softmax.lean).
-/

namespace Verif
noncomputable section

namespace Hd
/-- `a->scalar_multiply(k)`, mlpp_vector.cpp:475-481. -/
def scalar_multiply (a : Ref) (k : ℝ) : M ℝ Unit := do Vec.scalar_multiply (← derefV a) k
/-- `a->subtract_matrix_rowsn(B)`, mlpp_vector.cpp:1372-1389. -/
def subtract_matrix_rowsn (a B : Ref) : M ℝ Ref := do Vec.subtract_matrix_rowsn (← derefV a) B.mat
end Hd

namespace Ann

/-- `SchedulerType`, ann.h:60-66. -/
inductive Scheduler where
  | none
  | time
  | epoch
  | step
  | exponential

/-- The random numbers drawn by a pass through the network. -/
abbrev Draws := Nat → Utilities.Source × Utilities.Source

end Ann

/-- The fields of ann.h:120-132. -/
structure Ann where
  input_set : Ref
  output_set : Ref
  y_hat : Ref
  network : List HiddenLayer
  output_layer : Option OutputLayer
  n : Nat
  k : Nat
  lr_scheduler : Ann.Scheduler
  decay_constant : ℝ
  drop_rate : ℝ

namespace Ann
open Glm (epochs batchAt overBatches)

/-- `_output_layer->…`: null until `add_output_layer`. -/
def output (s : Ann) : M ℝ OutputLayer :=
  match s.output_layer with
  | some o => pure o
  | none => ub

/-- The loops over the hidden layers of `model_set_test`, ann.cpp:48-65, and of `forward_pass`, 854-871: every layer is given the outputs of the one
before (the first `x`), and passes forward. The second result is the input of the output layer. -/
def layersPass (g : Draws) : Nat → Ref → List HiddenLayer → M ℝ (List HiddenLayer × Ref)
  | _, x, [] => pure ([], x)
  | i, x, l :: ls => do
    let l ← HiddenLayer.forward_pass (g i).1 (g i).2 (HiddenLayer.set_input l x)
    let r ← layersPass g (i + 1) l.a ls
    pure (l :: r.1, r.2)

/-- `model_set_test(X)`, ann.cpp:47-70. -/
def model_set_test (g : Draws) (s : Ann) (X : Ref) : M ℝ (Ann × Ref) := do
  let r ← layersPass g 0 X s.network
  let o ← output s
  let o ← OutputLayer.forward_pass (g s.network.length).1 (g s.network.length).2 (OutputLayer.set_input o r.2)
  pure ({ s with network := r.1, output_layer := some o }, o.a)

/-- The loop over the hidden layers of `model_test`, ann.cpp:73-88. -/
def layersTest (g : Draws) : Nat → Ref → List HiddenLayer → M ℝ (List HiddenLayer × Ref)
  | _, x, [] => pure ([], x)
  | i, x, l :: ls => do
    let l ← HiddenLayer.test (g i).1 (g i).2 l x
    let r ← layersTest g (i + 1) l.a_test ls
    pure (l :: r.1, r.2)

/-- `model_test(x)`, ann.cpp:72-91. -/
def model_test (g : Draws) (s : Ann) (x : Ref) : M ℝ (Ann × ℝ) := do
  let r ← layersTest g 0 x s.network
  let o ← output s
  let o ← OutputLayer.test (g s.network.length).1 (g s.network.length).2 o r.2
  pure ({ s with network := r.1, output_layer := some o }, o.a_test)

/-- `forward_pass()`, ann.cpp:853-876. -/
def forward_pass (g : Draws) (s : Ann) : M ℝ Ann := do
  let r ← layersPass g 0 s.input_set s.network
  let o ← output s
  let o ← OutputLayer.forward_pass (g s.network.length).1 (g s.network.length).2 (OutputLayer.set_input o r.2)
  pure { s with network := r.1, output_layer := some o, y_hat := o.a }

/-- `apply_learning_rate_scheduler(learning_rate, decay_constant, epoch, drop_rate)`, ann.cpp:822-834. -/
def apply_learning_rate_scheduler (s : Ann) (learning_rate decay_constant epoch drop_rate : ℝ) : M ℝ ℝ :=
  match s.lr_scheduler with
  | .time => pure (learning_rate / (1 + decay_constant * epoch))
  | .epoch => pure (learning_rate * (decay_constant / MathFns.sqrt epoch))
  | .step => do
    let i ← Activation.toInt ((1 + epoch) / drop_rate)
    pure (learning_rate * MathFns.pow decay_constant (i : ℝ))
  | .exponential => pure (learning_rate * MathFns.exp (-decay_constant * epoch))
  | .none => pure learning_rate

/-- The loop over the hidden layers but the last of `cost`, ann.cpp:842-848. -/
def regTerms : List HiddenLayer → ℝ → M ℝ ℝ
  | [], t => pure t
  | [_], t => pure t
  | l :: ls, t => do
    let r ← Reg.reg_termm l.weights l.lambda l.alpha l.reg
    regTerms ls (t + r)

/-- `cost(y_hat, y)`, ann.cpp:836-851. -/
def cost (s : Ann) (y_hat y : Ref) : M ℝ ℝ := do
  let t ← regTerms s.network 0
  let o ← output s
  let c ← Cost.run_cost_norm_vector o.cost y_hat y
  let r ← Reg.reg_termv o.weights o.lambda o.alpha o.reg
  pure (c + t + r)

/-- What reaches a hidden layer from behind, ann.cpp:919, 930: from the output layer, or from the next hidden layer, the first of `ls`. -/
def signal (o : OutputLayer) : List HiddenLayer → M ℝ Ref
  | [] => Hd.outer_product o.delta o.weights
  | nx :: _ => do
    let t ← Hd.transposen nx.weights
    Hd.multn nx.delta t

/-- The gradient of one hidden layer, ann.cpp:918-924 and 927-932; `ls` are the layers after it. -/
def gradientOf (fuel : Nat) (o : OutputLayer) (l : HiddenLayer) (ls : List HiddenLayer) : M ℝ (HiddenLayer × Ref) := do
  let e ← signal o ls
  let f ← Activation.derivMatrix fuel l.activation l.z
  let d ← Hd.hadamard_productnm e f
  let l := HiddenLayer.set_delta l d
  let t ← Hd.transposen l.input
  let g ← Hd.multn t l.delta
  let r ← Reg.reg_deriv_termm l.weights l.lambda l.alpha l.reg
  let g ← Hd.addnm g r
  pure (l, g)

/-- The hidden layers of `compute_gradients`, ann.cpp:917-934, the last layer first. -/
def layersBack (fuel : Nat) (o : OutputLayer) : List HiddenLayer → M ℝ (List HiddenLayer × List Ref)
  | [] => pure ([], [])
  | l :: ls => do
    let r ← layersBack fuel o ls
    let p ← gradientOf fuel o l r.1
    pure (p.1 :: r.1, r.2 ++ [p.2])

/-- The output layer of `compute_gradients`, ann.cpp:912-915. -/
def gradientOut (o : OutputLayer) (y_hat y : Ref) : M ℝ (OutputLayer × Ref) := do
  let c ← Cost.run_cost_deriv_vector o.cost y_hat y
  let f ← Activation.derivVector o.activation o.z
  let d ← Hd.hadamard_productn c f
  let o := OutputLayer.set_delta o d
  let t ← Hd.transposen o.input
  let g ← Hd.mult_vec t o.delta
  let r ← Reg.reg_deriv_termv o.weights o.lambda o.alpha o.reg
  Hd.add g r
  pure (o, g)

/-- `compute_gradients(y_hat, output_set)`, ann.cpp:903-937: the gradients of the hidden layers, the last first, and that of the output layer. -/
def compute_gradients (fuel : Nat) (s : Ann) (y_hat y : Ref) : M ℝ (Ann × List Ref × Ref) := do
  let o ← output s
  let p ← gradientOut o y_hat y
  let r ← layersBack fuel p.1 s.network
  pure ({ s with network := r.1, output_layer := some p.1 }, r.2, p.2)

/-- The hidden layers of `update_parameters`, ann.cpp:884-900: the last layer takes the first update. -/
def layersUpdate (n : Nat) (updations : List Ref) (learning_rate : ℝ) : List HiddenLayer → M ℝ (List HiddenLayer)
  | [] => pure []
  | l :: ls => do
    let ls ← layersUpdate n updations learning_rate ls
    let slice ← batchAt updations ls.length
    let w ← Hd.subnm l.weights slice
    let l := HiddenLayer.set_weights l w
    let d ← Hd.scalar_multiplynm l.delta (learning_rate / n)
    let b ← Hd.subtract_matrix_rowsn l.bias d
    pure (HiddenLayer.set_bias l b :: ls)

/-- `update_parameters(hidden_layer_updations, output_layer_updation, learning_rate)`, ann.cpp:878-901. -/
def update_parameters (s : Ann) (hidden_layer_updations : List Ref) (output_layer_updation : Ref) (learning_rate : ℝ) : M ℝ Ann := do
  let o ← output s
  let w ← Hd.subn o.weights output_layer_updation
  let o := OutputLayer.set_weights o w
  let d ← Hd.sum_elements o.delta
  let o := OutputLayer.set_bias o (o.bias - learning_rate * d / s.n)
  let ls ← layersUpdate s.n hidden_layer_updations learning_rate s.network
  pure { s with network := ls, output_layer := some o }

/-- One step of gradient descent, ann.cpp:106-113, 165-172 and 212-219: the gradients at `y_hat`, scaled, are subtracted. -/
def step (fuel : Nat) (s : Ann) (y_hat y : Ref) (learning_rate : ℝ) : M ℝ Ann := do
  let _ ← cost s y_hat y
  let r ← compute_gradients fuel s y_hat y
  let s := r.1
  let gs ← LinAlg.scalar_multiplynvt (learning_rate / s.n) r.2.1
  Hd.scalar_multiply r.2.2 (learning_rate / s.n)
  update_parameters s gs r.2.2 learning_rate

/-- The body of the loop of `gradient_descent`, ann.cpp:104-119. -/
def gdBody (fuel : Nat) (g : Nat → Draws) (learning_rate : ℝ) (epoch : Nat) (s : Ann) : M ℝ Ann := do
  let lr ← apply_learning_rate_scheduler s learning_rate s.decay_constant epoch s.drop_rate
  let s ← step fuel s s.y_hat s.output_set lr
  forward_pass (g epoch) s

/-- `gradient_descent(learning_rate, max_epoch, ui)`, ann.cpp:93-127. The first pass draws `g 0`, the pass that ends epoch `e` draws `g e`. -/
def gradient_descent (fuel : Nat) (g : Nat → Draws) (s : Ann) (learning_rate : ℝ) (max_epoch : Int) : M ℝ Ann := do
  let s ← forward_pass (g 0) s
  epochs max_epoch s (gdBody fuel g learning_rate)

/-- The body of the loop of `sgd`, ann.cpp:154-177; `i` is the sample drawn, `g` the numbers drawn by layers that are not initialised. -/
def sgdBody (fuel : Nat) (g : Nat → Draws) (i : Nat → Nat) (row y_hat_row output_row : Ref) (learning_rate : ℝ) (epoch : Nat) (s : Ann) : M ℝ Ann := do
  let lr ← apply_learning_rate_scheduler s learning_rate s.decay_constant epoch s.drop_rate
  Hd.row_get_into s.input_set (i epoch) row
  let y ← Hd.element_get s.output_set (i epoch)
  Hd.element_set output_row 0 y
  let p ← model_test (g (2 * epoch)) s row
  Hd.element_set y_hat_row 0 p.2
  let s ← step fuel p.1 y_hat_row output_row lr
  let p ← model_test (g (2 * epoch + 1)) s row
  pure p.1

/-- `sgd(learning_rate, max_epoch, ui)`, ann.cpp:129-187. -/
def sgd (fuel : Nat) (g : Nat → Draws) (last : Draws) (i : Nat → Nat) (s : Ann) (learning_rate : ℝ) (max_epoch : Int) : M ℝ Ann := do
  let row ← newVec
  let size ← Hd.sizem s.input_set
  Hd.resizev (some row) size.x
  let y_hat_row ← newVec
  Hd.resizev (some y_hat_row) 1
  let output_row ← newVec
  Hd.resizev (some output_row) 1
  let s ← epochs max_epoch s (sgdBody fuel g i (some row) (some y_hat_row) (some output_row) learning_rate)
  forward_pass last s

/-- The body of the loops of `mbgd`, ann.cpp:208-224. -/
def mbgdBody (fuel : Nat) (learning_rate : ℝ) (g g' : Draws) (X y : Ref) (s : Ann) : M ℝ Ann := do
  let p ← model_set_test g s X
  let s ← step fuel p.1 p.2 y learning_rate
  let p ← model_set_test g' s X
  pure p.1

/-- `mbgd(learning_rate, max_epoch, mini_batch_size, ui)`, ann.cpp:189-235. `g e i` are the numbers drawn before and after the step with batch `i` in epoch `e`. -/
def mbgd (fuel : Nat) (g : Nat → Nat → Draws × Draws) (last : Draws) (s : Ann) (learning_rate : ℝ) (max_epoch mini_batch_size : Int) : M ℝ Ann :=
  if mini_batch_size = 0 then ub else do
    let n_mini_batch := (s.n : Int).tdiv mini_batch_size
    let batches ← Utilities.create_mini_batchesmv s.input_set s.output_set n_mini_batch
    let s ← epochs max_epoch s fun e s => do
      let lr ← apply_learning_rate_scheduler s learning_rate s.decay_constant e s.drop_rate
      foldN n_mini_batch.toNat s fun i s => do
        let X ← batchAt batches.1 i
        let y ← batchAt batches.2 i
        mbgdBody fuel lr (g e i).1 (g e i).2 X y s
    forward_pass last s

/-- `score()`, ann.cpp:750-756. -/
def score (g : Draws) (s : Ann) : M ℝ (Ann × ℝ) := do
  let s ← forward_pass g s
  let r ← Utilities.performance_vec s.y_hat.vec s.output_set.vec
  pure (s, r)

/-- `set_learning_rate_scheduler(type, decay_constant)`, ann.cpp:774-777. -/
def set_learning_rate_scheduler (s : Ann) (type : Scheduler) (decay_constant : ℝ) : Ann :=
  { s with lr_scheduler := type, decay_constant := decay_constant }
/-- `set_learning_rate_scheduler_drop(type, decay_constant, drop_rate)`, ann.cpp:779-783. -/
def set_learning_rate_scheduler_drop (s : Ann) (type : Scheduler) (decay_constant drop_rate : ℝ) : Ann :=
  { s with lr_scheduler := type, decay_constant := decay_constant, drop_rate := drop_rate }

/-- The outputs of the last hidden layer, the data if there is none. -/
def lastOut (x : Ref) : List HiddenLayer → Ref
  | [] => x
  | l :: ls => lastOut l.a ls

/-- The number of units of the last hidden layer, `k` if there is none. -/
def lastUnits (k : Nat) : List HiddenLayer → Nat
  | [] => k
  | l :: ls => lastUnits l.n_hidden ls

/-- `add_layer(n_hidden, activation, weight_init, reg, lambda, alpha)`, ann.cpp:785-793. -/
def add_layer (gw gb : Utilities.Source) (s : Ann) (n_hidden : Nat) (activation : Activation.Fn) (weight_init : Utilities.Kind) (reg : Reg.Kind)
    (lambda alpha : ℝ) : M ℝ Ann := do
  let l ← HiddenLayer.create gw gb n_hidden activation (lastOut s.input_set s.network) weight_init reg lambda alpha
  let l ← HiddenLayer.forward_pass gw gb l
  pure { s with network := s.network ++ [l] }

/-- `add_output_layer(activation, loss, weight_init, reg, lambda, alpha)`, ann.cpp:795-801. -/
def add_output_layer (gw gb : Utilities.Source) (s : Ann) (activation : Activation.Fn) (loss : Cost.Kind) (weight_init : Utilities.Kind)
    (reg : Reg.Kind) (lambda alpha : ℝ) : M ℝ Ann := do
  let o ← OutputLayer.create gw gb (lastUnits s.k s.network) activation loss (lastOut s.input_set s.network) weight_init reg lambda alpha
  pure { s with output_layer := some o }

/-- `MLPPANN(p_input_set, p_output_set)`, ann.cpp:803-812. -/
def create (input_set output_set : Ref) : M ℝ Ann := do
  let s ← Hd.sizem input_set
  pure ⟨input_set, output_set, none, [], none, s.y, s.x, .none, 0, 0⟩

end Ann
end
end Verif
