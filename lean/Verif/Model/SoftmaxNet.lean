import Verif.Model.TwoLayer

/-!
# `MLPPSoftmaxNet` (modules/softmax_net)

An object is a structure of its fields, as in Model/Glm.lean. Not modelled: printing (`ui`), the binding of methods.
-/

namespace Verif
noncomputable section

/-- The fields of softmax_net.h:134-151. `_n_hidden` is a natural number here. -/
structure SoftmaxNet where
  input_set : Ref
  output_set : Ref
  y_hat : Ref
  weights1 : Ref
  weights2 : Ref
  bias1 : Ref
  bias2 : Ref
  z2 : Ref
  a2 : Ref
  n_hidden : Nat
  reg : Reg.Kind
  lambda : ℝ
  alpha : ℝ

namespace SoftmaxNet
open Glm (epochs batchAt)
open TwoLayer

/-- `cost(y_hat, y)`, softmax_net.cpp:486-492. -/
def cost (s : SoftmaxNet) (y_hat y : Ref) : M ℝ ℝ := do
  let c ← Cost.cross_entropym y_hat y
  let r ← Reg.reg_termm s.weights1 s.lambda s.alpha s.reg
  let q ← Reg.reg_termm s.weights2 s.lambda s.alpha s.reg
  pure (c + r + q)

/-- `propagatev(x)`, softmax_net.cpp:503-512. -/
def propagatev (s : SoftmaxNet) (x : Ref) : M ℝ (Ref × Ref) := hiddenv x s.weights1 s.bias1

/-- `evaluatev(x)`, softmax_net.cpp:494-501. -/
def evaluatev (s : SoftmaxNet) (x : Ref) : M ℝ Ref := do
  let za ← hiddenv x s.weights1 s.bias1
  let o ← outv za.2 s.weights2 s.bias2
  Activation.adj_softmax_normv o

/-- `propagatem(X)`, softmax_net.cpp:523-532. -/
def propagatem (s : SoftmaxNet) (X : Ref) : M ℝ (Ref × Ref) := hiddenm X s.weights1 s.bias1

/-- `evaluatem(X)`, softmax_net.cpp:514-521. -/
def evaluatem (s : SoftmaxNet) (X : Ref) : M ℝ Ref := do
  let za ← hiddenm X s.weights1 s.bias1
  let o ← outm za.2 s.weights2 s.bias2
  Activation.adj_softmax_normm o

/-- `forward_pass()`, softmax_net.cpp:534-541. -/
def forward_pass (s : SoftmaxNet) : M ℝ SoftmaxNet := do
  let za ← hiddenm s.input_set s.weights1 s.bias1
  let o ← outm za.2 s.weights2 s.bias2
  let y_hat ← Activation.adj_softmax_normm o
  pure { s with z2 := za.1, a2 := za.2, y_hat := y_hat }

/-- `needs_init()`, softmax_net.cpp:384-418. -/
def needs_init (s : SoftmaxNet) : M ℝ Bool :=
  match s.input_set, s.output_set with
  | none, _ => pure true
  | _, none => pure true
  | some _, some _ => do
    let size ← Hd.sizem s.input_set
    let out ← Hd.sizem s.output_set
    let a ← Hd.sizem s.y_hat
    if a.y ≠ size.y then pure true else do
      let b ← Hd.sizem s.weights1
      if b.x ≠ s.n_hidden ∨ b.y ≠ size.x then pure true else do
        let c ← Hd.sizem s.weights2
        if c.x ≠ out.x ∨ c.y ≠ s.n_hidden then pure true else do
          let d ← Hd.size s.bias1
          if d ≠ s.n_hidden then pure true else do
            let e ← Hd.size s.bias2
            pure (e ≠ out.x)

/-- The two checks at the start of every public method, e.g. softmax_net.cpp:135-136; the first one is also the first in `needs_init`. -/
def guarded {α : Type} (s : SoftmaxNet) (fallback : α) (body : M ℝ α) : M ℝ α := do
  if ← needs_init s then pure fallback else body

/-- `model_test(x)`, softmax_net.cpp:138-143. -/
def model_test (s : SoftmaxNet) (x : Ref) : M ℝ Ref := guarded s none (evaluatev s x)

/-- `model_set_test(X)`, softmax_net.cpp:145-150. -/
def model_set_test (s : SoftmaxNet) (X : Ref) : M ℝ Ref := guarded s none (evaluatem s X)

/-- `_weights2->sub(d)` and the regularisation, softmax_net.cpp:174-175, 261-262, 333-334. -/
def sub2 (s : SoftmaxNet) (d : Ref) : M ℝ SoftmaxNet := do
  Hd.subm s.weights2 d
  let w ← Reg.reg_weightsm s.weights2 s.lambda s.alpha s.reg
  pure { s with weights2 := w }

/-- `_weights1->sub(d)` and the regularisation, softmax_net.cpp:185-186, 272-273, 345-346. -/
def sub1 (s : SoftmaxNet) (d : Ref) : M ℝ SoftmaxNet := do
  Hd.subm s.weights1 d
  let w ← Reg.reg_weightsm s.weights1 s.lambda s.alpha s.reg
  pure { s with weights1 := w }

/-- The update of the hidden layer, softmax_net.cpp:180-188 and 340-348. -/
def update1 (s : SoftmaxNet) (X z2 error : Ref) (learning_rate : ℝ) : M ℝ SoftmaxNet := do
  let D ← back error s.weights2 z2
  let d ← slope X D learning_rate
  let s ← sub1 s d
  let b ← Hd.scalar_multiplynm D learning_rate
  Hd.subtract_matrix_rows s.bias1 b
  pure s

/-- The body of the loop of `train_gradient_descent`, softmax_net.cpp:165-190. -/
def gdBody (learning_rate : ℝ) (s : SoftmaxNet) : M ℝ SoftmaxNet := do
  let _ ← cost s s.y_hat s.output_set
  let error ← Hd.subnm s.y_hat s.output_set
  let d ← slope s.a2 error learning_rate
  let s ← sub2 s d
  let b ← Hd.scalar_multiplynm error learning_rate
  Hd.subtract_matrix_rows s.bias2 b
  let s ← update1 s s.input_set s.z2 error learning_rate
  forward_pass s

/-- `train_gradient_descent(learning_rate, max_epoch, ui)`, softmax_net.cpp:152-207. -/
def train_gradient_descent (s : SoftmaxNet) (learning_rate : ℝ) (max_epoch : Int) : M ℝ SoftmaxNet :=
  guarded s s do
    let s ← forward_pass s
    epochs max_epoch s fun _ s => gdBody learning_rate s

/-- The body of the loop of `train_sgd`, softmax_net.cpp:239-279. -/
def sgdBody (row out yhatm outm : Ref) (i : Int) (learning_rate : ℝ) (s : SoftmaxNet) : M ℝ SoftmaxNet := do
  Hd.row_get_into s.input_set i row
  Hd.row_get_into s.output_set i out
  Hd.row_set_mlpp_vector outm 0 out
  let y_hat ← evaluatev s row
  Hd.row_set_mlpp_vector yhatm 0 y_hat
  let za ← propagatev s row
  let _ ← cost s yhatm outm
  let error ← Hd.subn y_hat out
  let d ← slope2v error za.2 learning_rate
  let s ← sub2 s d
  let b ← Hd.scalar_multiplyn error learning_rate
  Hd.sub s.bias2 b
  let D ← backv error s.weights2 za.1
  let d ← slope1v row D learning_rate
  let s ← sub1 s d
  let b ← Hd.scalar_multiplyn D learning_rate
  Hd.sub s.bias1 b
  let _ ← evaluatev s row
  pure s

/-- `train_sgd(learning_rate, max_epoch, ui)`, softmax_net.cpp:209-296. `pick e` is the row drawn in epoch `e`; with no rows the bounds of the
distribution are in the wrong order, which is undefined. -/
def train_sgd (s : SoftmaxNet) (pick : Nat → Nat) (learning_rate : ℝ) (max_epoch : Int) : M ℝ SoftmaxNet :=
  guarded s s do
    let size ← Hd.sizem s.input_set
    if size.y = 0 then ub else do
      let row ← newVec
      resizeTo row ⟨size.x, 1, 1⟩
      let osize ← Hd.sizem s.output_set
      let out ← newVec
      resizeTo out ⟨osize.x, 1, 1⟩
      let bsize ← Hd.size s.bias1
      let yhatm ← newMat
      resizeTo yhatm ⟨bsize, 1, 1⟩
      let outm ← newMat
      resizeTo outm ⟨osize.x, 1, 1⟩
      let s ← epochs max_epoch s fun e s => sgdBody (some row) (some out) (some yhatm) (some outm) (pick e) learning_rate s
      forward_pass s

/-- The body of the loop over the mini-batches, softmax_net.cpp:316-350. `_bias2->sub(…)` is called with a matrix: the conversion of the handle to one of
a vector gives null, and the call does nothing. -/
def mbgdBody (X y : Ref) (learning_rate : ℝ) (s : SoftmaxNet) : M ℝ SoftmaxNet := do
  let y_hat ← evaluatem s X
  let za ← propagatem s X
  let _ ← cost s y_hat y
  let error ← Hd.subnm y_hat y
  let d ← slope za.2 error learning_rate
  let s ← sub2 s d
  let b ← Hd.scalar_multiplynm error learning_rate
  Hd.sub s.bias2 b
  let s ← update1 s X za.1 error learning_rate
  let _ ← evaluatem s X
  pure s

/-- `train_mbgd(learning_rate, max_epoch, mini_batch_size, ui)`, softmax_net.cpp:298-369. -/
def train_mbgd (s : SoftmaxNet) (learning_rate : ℝ) (max_epoch mini_batch_size : Int) : M ℝ SoftmaxNet :=
  guarded s s do
    let size ← Hd.sizem s.input_set
    if mini_batch_size = 0 then ub else do
      let n_mini_batch := (size.y : Int).tdiv mini_batch_size
      let batches ← Utilities.create_mini_batchesmm s.input_set s.output_set n_mini_batch
      let s ← epochs max_epoch s fun _ s =>
        foldN n_mini_batch.toNat s fun i s => do
          let X ← batchAt batches.1 i
          let y ← batchAt batches.2 i
          mbgdBody X y learning_rate s
      forward_pass s

/-- `score()`, softmax_net.cpp:371-378. -/
def score (s : SoftmaxNet) : M ℝ ℝ := guarded s 0 (Utilities.performance_mat s.y_hat.mat s.output_set.mat)

/-- `get_embeddings()`, softmax_net.cpp:380-382. -/
def get_embeddings (s : SoftmaxNet) : Ref := s.weights1

/-- `initialize()`, softmax_net.cpp:420-442. `gw1`, `gw2`, `gb1`, `gb2` are the random numbers drawn. -/
def initialize_ (gw1 gw2 gb1 gb2 : Utilities.Source) (s : SoftmaxNet) : M ℝ SoftmaxNet :=
  match s.input_set, s.output_set with
  | none, _ => pure s
  | _, none => pure s
  | some _, some _ => do
    let size ← Hd.sizem s.input_set
    let out ← Hd.sizem s.output_set
    Hd.resizem s.y_hat ⟨0, size.y, 1⟩
    Hd.resizem s.weights1 ⟨s.n_hidden, size.x, 1⟩
    Utilities.weight_initializationm gw1 s.weights1.mat .default
    Hd.resizem s.weights2 ⟨out.x, s.n_hidden, 1⟩
    Utilities.weight_initializationm gw2 s.weights2.mat .default
    Hd.resizev s.bias1 s.n_hidden
    Utilities.bias_initializationv gb1 s.bias1.vec
    Hd.resizev s.bias2 out.x
    Utilities.bias_initializationv gb2 s.bias2.vec
    pure s

/-- `MLPPSoftmaxNet(input_set, output_set, n_hidden, reg, lambda, alpha)`, softmax_net.cpp:444-464. -/
def create (gw1 gw2 gb1 gb2 : Utilities.Source) (input_set output_set : Ref) (n_hidden : Nat) (reg : Reg.Kind) (lambda alpha : ℝ) :
    M ℝ SoftmaxNet := do
  let y_hat ← newMat
  let weights1 ← newMat
  let weights2 ← newMat
  let bias1 ← newVec
  let bias2 ← newVec
  let z2 ← newMat
  let a2 ← newMat
  initialize_ gw1 gw2 gb1 gb2 ⟨input_set, output_set, some y_hat, some weights1, some weights2, some bias1, some bias2, some z2, some a2, n_hidden,
    reg, lambda, alpha⟩

end SoftmaxNet
end
end Verif
