import Verif.Model.Glm
import Verif.Model.HandleM

/-!
# `MLPPSoftmaxReg` (modules/softmax_reg)

An object is a structure of its fields (softmax_reg.h:102-111), as in Model/Glm.lean. Not modelled: printing (`ui`), the binding of methods.
-/

namespace Verif
noncomputable section

/-- The fields of softmax_reg.h:102-111. -/
structure SoftmaxReg where
  input_set : Ref
  output_set : Ref
  y_hat : Ref
  weights : Ref
  bias : Ref
  reg : Reg.Kind
  lambda : ℝ
  alpha : ℝ

namespace SoftmaxReg
open Glm (epochs batchAt)

/-- `cost(y_hat, y)`, softmax_reg.cpp:359-364. -/
def cost (s : SoftmaxReg) (y_hat y : Ref) : M ℝ ℝ := do
  let c ← Cost.cross_entropym y_hat y
  let r ← Reg.reg_termm s.weights s.lambda s.alpha s.reg
  pure (c + r)

/-- `evaluatev(x)`, softmax_reg.cpp:366-369. -/
def evaluatev (s : SoftmaxReg) (x : Ref) : M ℝ Ref := do
  let t ← Hd.transposen s.weights
  let p ← Hd.mult_vec t x
  let q ← Hd.addn s.bias p
  Activation.softmax_normv q

/-- `evaluatem(X)`, softmax_reg.cpp:371-375. -/
def evaluatem (s : SoftmaxReg) (X : Ref) : M ℝ Ref := do
  let p ← Hd.multn X s.weights
  let q ← Hd.add_vecn p s.bias
  Activation.softmax_normm q

/-- `forward_pass()`, softmax_reg.cpp:378-382. -/
def forward_pass (s : SoftmaxReg) : M ℝ SoftmaxReg := do
  let y_hat ← evaluatem s s.input_set
  pure { s with y_hat := y_hat }

/-- `needs_init()`, softmax_reg.cpp:287-313. -/
def needs_init (s : SoftmaxReg) : M ℝ Bool :=
  match s.input_set, s.output_set with
  | none, _ => pure true
  | _, none => pure true
  | some _, some _ => do
    let size ← Hd.sizem s.input_set
    let out ← Hd.sizem s.output_set
    let a ← Hd.sizem s.y_hat
    if a.y ≠ size.y then pure true else do
      let b ← Hd.sizem s.weights
      if b.x ≠ out.x ∨ b.y ≠ size.x then pure true else do
        let c ← Hd.size s.bias
        pure (c ≠ out.x)

/-- The two checks at the start of every public method, e.g. softmax_reg.cpp:97-98; the first one is also the first in `needs_init`. -/
def guarded {α : Type} (s : SoftmaxReg) (fallback : α) (body : M ℝ α) : M ℝ α := do
  if ← needs_init s then pure fallback else body

/-- `model_test(x)`, softmax_reg.cpp:96-101. -/
def model_test (s : SoftmaxReg) (x : Ref) : M ℝ Ref := guarded s none (evaluatev s x)

/-- `model_set_test(X)`, softmax_reg.cpp:103-108. -/
def model_set_test (s : SoftmaxReg) (X : Ref) : M ℝ Ref := guarded s none (evaluatem s X)

/-- `_weights->sub(…)` and the regularisation, e.g. softmax_reg.cpp:129-130. -/
def subStep (s : SoftmaxReg) (d : Ref) : M ℝ SoftmaxReg := do
  Hd.subm s.weights d
  let w ← Reg.reg_weightsm s.weights s.lambda s.alpha s.reg
  pure { s with weights := w }

/-- The update from inputs, predictions and outputs, softmax_reg.cpp:123-136 and 249-259. -/
def update (s : SoftmaxReg) (X y_hat y : Ref) (learning_rate : ℝ) : M ℝ SoftmaxReg := do
  let error ← Hd.subnm y_hat y
  let t ← Hd.transposen X
  let w_gradient ← Hd.multn t error
  let d ← Hd.scalar_multiplynm w_gradient learning_rate
  let s ← subStep s d
  let b ← Hd.scalar_multiplynm error learning_rate
  Hd.subtract_matrix_rows s.bias b
  pure s

/-- `train_gradient_descent(learning_rate, max_epoch, ui)`, softmax_reg.cpp:110-152. -/
def train_gradient_descent (s : SoftmaxReg) (learning_rate : ℝ) (max_epoch : Int) : M ℝ SoftmaxReg :=
  guarded s s do
    let s ← forward_pass s
    epochs max_epoch s fun _ s => do
      let _ ← cost s s.y_hat s.output_set
      let s ← update s s.input_set s.y_hat s.output_set learning_rate
      forward_pass s

/-- The update of the loop of `train_sgd`, softmax_reg.cpp:185-211. -/
def sgdUpdate (row yhatm out outm : Ref) (i : Int) (learning_rate : ℝ) (s : SoftmaxReg) : M ℝ SoftmaxReg := do
  Hd.row_get_into s.input_set i row
  let y_hat ← evaluatev s row
  let p ← Hd.size y_hat
  Hd.resizem yhatm ⟨p, 1, 1⟩
  Hd.row_set_mlpp_vector yhatm 0 y_hat
  Hd.row_get_into s.output_set i out
  Hd.row_set_mlpp_vector outm 0 out
  let _ ← cost s yhatm outm
  let e ← Hd.subn y_hat out
  let w_gradient ← Hd.outer_product row e
  let d ← Hd.scalar_multiplynm w_gradient learning_rate
  let s ← subStep s d
  let b_gradient ← Hd.subn y_hat out
  let b ← Hd.scalar_multiplyn b_gradient learning_rate
  Hd.sub s.bias b
  pure s

/-- The body of the loop of `train_sgd`, softmax_reg.cpp:185-223: after the update, the *outputs* of the sample are evaluated as if they were
inputs. -/
def sgdBody (row yhatm out outm : Ref) (i : Int) (learning_rate : ℝ) (s : SoftmaxReg) : M ℝ SoftmaxReg := do
  let s ← sgdUpdate row yhatm out outm i learning_rate s
  let _ ← evaluatev s out
  pure s

/-- `train_sgd(learning_rate, max_epoch, ui)`, softmax_reg.cpp:154-226. `pick e` is the row drawn in epoch `e`; with no rows the bounds of the
distribution are in the wrong order, which is undefined. -/
def train_sgd (s : SoftmaxReg) (pick : Nat → Nat) (learning_rate : ℝ) (max_epoch : Int) : M ℝ SoftmaxReg :=
  guarded s s do
    let size ← Hd.sizem s.input_set
    if size.y = 0 then ub else do
      let row ← newVec
      resizeTo row ⟨size.x, 1, 1⟩
      let yhatm ← newMat
      let osize ← Hd.sizem s.output_set
      let out ← newVec
      resizeTo out ⟨osize.x, 1, 1⟩
      let outm ← newMat
      resizeTo outm ⟨osize.x, 1, 1⟩
      let s ← epochs max_epoch s fun e s => sgdBody (some row) (some yhatm) (some out) (some outm) (pick e) learning_rate s
      forward_pass s

/-- `train_mbgd(learning_rate, max_epoch, mini_batch_size, ui)`, softmax_reg.cpp:228-276. -/
def train_mbgd (s : SoftmaxReg) (learning_rate : ℝ) (max_epoch mini_batch_size : Int) : M ℝ SoftmaxReg :=
  guarded s s do
    let size ← Hd.sizem s.input_set
    if mini_batch_size = 0 then ub else do
      let n_mini_batch := (size.y : Int).tdiv mini_batch_size
      let batches ← Utilities.create_mini_batchesmm s.input_set s.output_set n_mini_batch
      let s ← epochs max_epoch s fun _ s =>
        foldN n_mini_batch.toNat s fun i s => do
          let X ← batchAt batches.1 i
          let y ← batchAt batches.2 i
          let y_hat ← evaluatem s X
          let _ ← cost s y_hat y
          let s ← update s X y_hat y learning_rate
          let _ ← evaluatem s X
          pure s
      forward_pass s

/-- `score()`, softmax_reg.cpp:278-285. -/
def score (s : SoftmaxReg) : M ℝ ℝ := guarded s 0 (Utilities.performance_mat s.y_hat.mat s.output_set.mat)

/-- `initialize()`, softmax_reg.cpp:314-330. -/
def initialize_ (gw gb : Utilities.Source) (s : SoftmaxReg) : M ℝ SoftmaxReg :=
  match s.input_set, s.output_set with
  | none, _ => pure s
  | _, none => pure s
  | some _, some _ => do
    let size ← Hd.sizem s.input_set
    let out ← Hd.sizem s.output_set
    Hd.resizem s.y_hat ⟨0, size.y, 1⟩
    Hd.resizem s.weights ⟨out.x, size.x, 1⟩
    Hd.resizev s.bias out.x
    Utilities.weight_initializationm gw s.weights.mat .default
    Utilities.bias_initializationv gb s.bias.vec
    pure s

/-- `MLPPSoftmaxReg(input_set, output_set, reg, lambda, alpha)`, softmax_reg.cpp:332-344. -/
def create (gw gb : Utilities.Source) (input_set output_set : Ref) (reg : Reg.Kind) (lambda alpha : ℝ) : M ℝ SoftmaxReg := do
  let y_hat ← newMat
  let weights ← newMat
  let bias ← newVec
  initialize_ gw gb ⟨input_set, output_set, some y_hat, some weights, some bias, reg, lambda, alpha⟩

end SoftmaxReg
end
end Verif
