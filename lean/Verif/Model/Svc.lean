import Verif.Model.Glm

/-!
# `MLPPSVC` (modules/svc)

An object is a `Glm` (Model/Glm.lean) with the fields `_input_set`, `_output_set`, `_z`, `_y_hat`, `_weights`, `_bias` (svc.h:105-112), and the
number `_c`, which no modelled method changes and which is given to the methods as the parameter `c`. The class has no `_n` and `_k`: the
fields of the structure are the sizes it reads from `_input_set`. Not modelled: printing (`ui`), the binding of methods.
-/

namespace Verif
noncomputable section
namespace Svc
open Glm

/-- The activation is the sign: svc.cpp:340-374. The loss in this record is not used; the class has a cost of its own. -/
def fns : Fns := ⟨Activation.sign_normr, Activation.sign_normv, Activation.sign_derivv, Cost.hinge_lossv, true⟩

/-- `set_output_set(val)`, svc.cpp:51-53: the parameter is a `Ref<MLPPMatrix>`, the field a `Ref<MLPPVector>`. -/
def set_output_set (s : Glm) (val : Ref) : Glm := { s with output_set := Ref.asV (Ref.asM val) }

/-- `cost(z, y, weights, c)`, svc.cpp:340-343. -/
def cost (z y weights : Ref) (c : ℝ) : M ℝ ℝ := Cost.hinge_losswv z y weights c

/-- `_weights = regularization.reg_weightsv(_weights, l, 0, REGULARIZATION_TYPE_RIDGE)`, svc.cpp:121, 194, 246. -/
def ridge (s : Glm) (l : ℝ) : M ℝ Glm := do
  let w ← Reg.reg_weightsv s.weights l 0 .ridge
  pure { s with weights := w }

/-- `model_set_test(X)`, svc.cpp:90-94. -/
def model_set_test (s : Glm) (X : Ref) : M ℝ Ref := do
  if ← needs_init s then pure none else evaluatem fns s X

/-- `model_test(x)`, svc.cpp:96-100. -/
def model_test (s : Glm) (x : Ref) : M ℝ ℝ := do
  if ← needs_init s then pure 0 else evaluatev fns s x

/-- The body of the loop of `train_gradient_descent`, svc.cpp:117-126: the bias is *increased* by the slopes taken at the predicted signs. -/
def gdBody (c : ℝ) (n : Nat) (learning_rate : ℝ) (s : Glm) : M ℝ Glm := do
  let _ ← cost s.y_hat s.output_set s.weights c
  let e ← Cost.hinge_loss_derivwv s.z s.output_set c
  let d ← gradient s.input_set e (learning_rate / n)
  Hd.sub s.weights d
  let s ← ridge s (learning_rate / n)
  let e ← Cost.hinge_loss_derivwv s.y_hat s.output_set c
  let b ← Hd.sum_elements e
  let s := { s with bias := s.bias + learning_rate * b / n }
  forward_pass fns s

/-- `train_gradient_descent(learning_rate, max_epoch, ui)`, svc.cpp:102-140. -/
def train_gradient_descent (s : Glm) (c learning_rate : ℝ) (max_epoch : Int) : M ℝ Glm := do
  if ← needs_init s then pure s else do
    let size ← Hd.sizem s.input_set
    let s ← forward_pass fns s
    epochs max_epoch s fun _ s => gdBody c size.y learning_rate s

/-- The body of the loop of `train_sgd`, svc.cpp:173-199. -/
def sgdBody (c : ℝ) (row out zrow : Loc) (i : Int) (learning_rate : ℝ) (s : Glm) : M ℝ Glm := do
  Hd.row_get_into s.input_set i (some row)
  let y ← Hd.element_get s.output_set i
  Hd.element_set (some out) 0 y
  let z ← propagatev s (some row)
  Hd.element_set (some zrow) 0 z
  let _ ← cost (some zrow) (some out) s.weights c
  let v ← Cost.hinge_loss_derivwv (some zrow) (some out) c
  let cost_deriv ← Hd.element_get v 0
  let d ← Hd.scalar_multiplyn (some row) (learning_rate * cost_deriv)
  Hd.sub s.weights d
  let s ← ridge s learning_rate
  pure { s with bias := s.bias - learning_rate * cost_deriv }

/-- `train_sgd(learning_rate, max_epoch, ui)`, svc.cpp:142-214. `pick e` is the row drawn in epoch `e`. -/
def train_sgd (s : Glm) (c : ℝ) (pick : Nat → Nat) (learning_rate : ℝ) (max_epoch : Int) : M ℝ Glm := do
  if ← needs_init s then pure s else do
    let size ← Hd.sizem s.input_set
    if size.y = 0 then ub else do
      let row ← newVec
      resizeTo row ⟨size.x, 1, 1⟩
      let out ← newVec
      resizeTo out ⟨1, 1, 1⟩
      let zrow ← newVec
      resizeTo zrow ⟨1, 1, 1⟩
      let s ← forward_pass fns s
      let s ← epochs max_epoch s fun e s => sgdBody c row out zrow (pick e) learning_rate s
      forward_pass fns s

/-- `train_mbgd(learning_rate, max_epoch, mini_batch_size, ui)`, svc.cpp:216-269: `_weights->subn(…)` returns a new vector, which is dropped. -/
def train_mbgd (s : Glm) (c learning_rate : ℝ) (max_epoch mini_batch_size : Int) : M ℝ Glm := do
  if ← needs_init s then pure s else do
    let size ← Hd.sizem s.input_set
    let n := size.y
    let s ← overBatches s.input_set s.output_set n mini_batch_size max_epoch (forward_pass fns s) fun _ X y s => do
      let y_hat ← evaluatem fns s X
      let z ← propagatem s X
      let _ ← cost z y s.weights c
      let e ← Cost.hinge_loss_derivwv z y c
      let d ← gradient X e (learning_rate / n)
      let _ ← Hd.subn s.weights d
      let s ← ridge s (learning_rate / n)
      let e ← Cost.hinge_loss_derivwv y_hat y c
      let b ← Hd.sum_elements e
      let s := { s with bias := s.bias - learning_rate * b / n }
      let s ← forward_pass fns s
      let _ ← evaluatem fns s X
      pure s
    forward_pass fns s

/-- `score()`, svc.cpp:271-276. -/
def score (s : Glm) : M ℝ ℝ := do
  if ← needs_init s then pure 0 else Utilities.performance_vec s.y_hat.vec s.output_set.vec

/-- `MLPPSVC(input_set, output_set, c)`, svc.cpp:316-327 (`needs_init` and `initialize`, 278-314, have the text of `Glm.needs_init` and
`Glm.initialize_`). -/
def create (gw gb : Utilities.Source) (input_set output_set : Ref) : M ℝ Glm := create_z gw gb input_set output_set .none 0 0

end Svc
end
end Verif
