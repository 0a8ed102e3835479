import Verif.Model.TwoLayer

/-!
# `MLPPAutoEncoder` (modules/auto_encoder)

An object is a structure of its fields (auto_encoder.h:100-116), as in Model/Glm.lean. Not modelled: printing (`ui`), the binding of methods, `save` (its
body is commented out). There is no method that sets an object up again: only the constructor with data does.
-/

namespace Verif
noncomputable section

/-- The fields of auto_encoder.h:100-116. -/
structure AutoEncoder where
  initialized : Bool
  input_set : Ref
  y_hat : Ref
  weights1 : Ref
  weights2 : Ref
  bias1 : Ref
  bias2 : Ref
  z2 : Ref
  a2 : Ref
  n : Nat
  k : Nat
  n_hidden : Nat

namespace AutoEncoder
open Glm (epochs batchAt)
open TwoLayer

/-- `cost(y_hat, y)`, auto_encoder.cpp:319-323. -/
def cost (y_hat y : Ref) : M ℝ ℝ := Cost.msem y_hat y

/-- `propagatev(x)`, auto_encoder.cpp:334-343. -/
def propagatev (s : AutoEncoder) (x : Ref) : M ℝ (Ref × Ref) := hiddenv x s.weights1 s.bias1

/-- `evaluatev(x)`, auto_encoder.cpp:325-332. -/
def evaluatev (s : AutoEncoder) (x : Ref) : M ℝ Ref := do
  let za ← hiddenv x s.weights1 s.bias1
  outv za.2 s.weights2 s.bias2

/-- `propagatem(X)`, auto_encoder.cpp:354-363. -/
def propagatem (s : AutoEncoder) (X : Ref) : M ℝ (Ref × Ref) := hiddenm X s.weights1 s.bias1

/-- `evaluatem(X)`, auto_encoder.cpp:345-352. -/
def evaluatem (s : AutoEncoder) (X : Ref) : M ℝ Ref := do
  let za ← hiddenm X s.weights1 s.bias1
  outm za.2 s.weights2 s.bias2

/-- `forward_pass()`, auto_encoder.cpp:365-372. -/
def forward_pass (s : AutoEncoder) : M ℝ AutoEncoder := do
  let za ← hiddenm s.input_set s.weights1 s.bias1
  let y_hat ← outm za.2 s.weights2 s.bias2
  pure { s with z2 := za.1, a2 := za.2, y_hat := y_hat }

/-- `model_set_test(X)`, auto_encoder.cpp:64-68. -/
def model_set_test (s : AutoEncoder) (X : Ref) : M ℝ Ref := if s.initialized then evaluatem s X else pure none

/-- `model_test(x)`, auto_encoder.cpp:70-74. -/
def model_test (s : AutoEncoder) (x : Ref) : M ℝ Ref := if s.initialized then evaluatev s x else pure none

/-- The body of the loop of `gradient_descent`, auto_encoder.cpp:86-109. -/
def gdBody (learning_rate : ℝ) (s : AutoEncoder) : M ℝ AutoEncoder := do
  let _ ← cost s.y_hat s.input_set
  let error ← Hd.subnm s.y_hat s.input_set
  let d ← slope s.a2 error (learning_rate / s.n)
  Hd.subm s.weights2 d
  let b ← Hd.scalar_multiplynm error learning_rate
  Hd.subtract_matrix_rows s.bias2 b
  let D ← back error s.weights2 s.z2
  let d ← slope s.input_set D (learning_rate / s.n)
  Hd.subm s.weights1 d
  let b ← Hd.scalar_multiplynm D (learning_rate / s.n)
  Hd.subtract_matrix_rows s.bias1 b
  forward_pass s

/-- `gradient_descent(learning_rate, max_epoch, ui)`, auto_encoder.cpp:76-126. -/
def gradient_descent (s : AutoEncoder) (learning_rate : ℝ) (max_epoch : Int) : M ℝ AutoEncoder :=
  if s.initialized then do
    let s ← forward_pass s
    epochs max_epoch s fun _ s => gdBody learning_rate s
  else pure s

/-- The body of the loop of `sgd`, auto_encoder.cpp:152-183. -/
def sgdBody (row rowm yhatm : Ref) (i : Int) (learning_rate : ℝ) (s : AutoEncoder) : M ℝ AutoEncoder := do
  Hd.row_get_into s.input_set i row
  Hd.row_set_mlpp_vector rowm 0 row
  let y_hat ← evaluatev s row
  Hd.row_set_mlpp_vector yhatm 0 y_hat
  let za ← propagatev s row
  let _ ← cost yhatm rowm
  let error ← Hd.subn y_hat row
  let d ← slope2v error za.2 learning_rate
  Hd.subm s.weights2 d
  let b ← Hd.scalar_multiplyn error learning_rate
  Hd.sub s.bias2 b
  let D ← backv error s.weights2 za.1
  let d ← slope1v row D learning_rate
  Hd.subm s.weights1 d
  let b ← Hd.scalar_multiplyn D learning_rate
  Hd.sub s.bias1 b
  let _ ← evaluatev s row
  pure s

/-- `sgd(learning_rate, max_epoch, ui)`, auto_encoder.cpp:128-202. `pick e` is the row drawn in epoch `e`; with no rows the bounds of the distribution are
in the wrong order, which is undefined. -/
def sgd (s : AutoEncoder) (pick : Nat → Nat) (learning_rate : ℝ) (max_epoch : Int) : M ℝ AutoEncoder :=
  if s.initialized then
    if s.n = 0 then ub else do
      let size ← Hd.sizem s.input_set
      let row ← newVec
      resizeTo row ⟨size.x, 1, 1⟩
      let rowm ← newMat
      resizeTo rowm ⟨size.x, 1, 1⟩
      let bsize ← Hd.size s.bias2
      let yhatm ← newMat
      resizeTo yhatm ⟨bsize, 1, 1⟩
      let s ← epochs max_epoch s fun e s => sgdBody (some row) (some rowm) (some yhatm) (pick e) learning_rate s
      forward_pass s
  else pure s

/-- The body of the loop over the mini-batches, auto_encoder.cpp:216-247. `_bias2->sub(…)` is called with a matrix: the conversion of the handle to one
of a vector gives null, and the call does nothing. The product of the transposed weights and the errors is in the wrong order, and the second step is
applied to `_weights2`, too. -/
def mbgdBody (X : Ref) (learning_rate : ℝ) (s : AutoEncoder) : M ℝ AutoEncoder := do
  let y_hat ← evaluatem s X
  let za ← propagatem s X
  let _ ← cost y_hat X
  let error ← Hd.subnm y_hat X
  let size ← Hd.sizem X
  let d ← slope za.2 error (learning_rate / size.y)
  Hd.subm s.weights2 d
  let b ← Hd.scalar_multiplynm error learning_rate
  Hd.sub s.bias2 b
  let t ← Hd.transposen s.weights2
  let D1_1 ← Hd.multn t error
  let g ← Activation.sigmoid_derivm za.1
  let D1_2 ← Hd.hadamard_productnm D1_1 g
  let d ← slope X D1_2 (learning_rate / size.x)
  Hd.subm s.weights2 d
  let b ← Hd.scalar_multiplynm D1_2 (learning_rate / size.x)
  Hd.subtract_matrix_rows s.bias1 b
  let _ ← evaluatem s X
  pure s

/-- `mbgd(learning_rate, max_epoch, mini_batch_size, ui)`, auto_encoder.cpp:204-266. -/
def mbgd (s : AutoEncoder) (learning_rate : ℝ) (max_epoch mini_batch_size : Int) : M ℝ AutoEncoder :=
  if s.initialized then
    if mini_batch_size = 0 then ub else do
      let n_mini_batch := (s.n : Int).tdiv mini_batch_size
      let batches ← Utilities.create_mini_batchesm s.input_set n_mini_batch
      let s ← epochs max_epoch s fun _ s =>
        foldN n_mini_batch.toNat s fun i s => do
          let X ← batchAt batches i
          mbgdBody X learning_rate s
      forward_pass s
  else pure s

/-- `score()`, auto_encoder.cpp:268-273. -/
def score (s : AutoEncoder) : M ℝ ℝ :=
  if s.initialized then Utilities.performance_mat s.y_hat.mat s.input_set.mat else pure 0

/-- `set_input_set(val)`, auto_encoder.cpp:49-53. -/
def set_input_set (s : AutoEncoder) (val : Ref) : AutoEncoder := { s with input_set := val, initialized := false }

/-- `set_n_hidden(val)`, auto_encoder.cpp:58-62. -/
def set_n_hidden (s : AutoEncoder) (val : Nat) : AutoEncoder := { s with n_hidden := val, initialized := false }

/-- `MLPPAutoEncoder(input_set, n_hidden)`, auto_encoder.cpp:283-311. `gw1`, `gw2`, `gb1`, `gb2` are the random numbers drawn. -/
def create (gw1 gw2 gb1 gb2 : Utilities.Source) (input_set : Ref) (n_hidden : Nat) : M ℝ AutoEncoder := do
  let size ← Hd.sizem input_set
  let y_hat ← newMat
  resizeTo y_hat size
  let weights1 ← newMat
  resizeTo weights1 ⟨n_hidden, size.x, 1⟩
  Utilities.weight_initializationm gw1 (some weights1.id) .default
  let weights2 ← newMat
  resizeTo weights2 ⟨size.x, n_hidden, 1⟩
  Utilities.weight_initializationm gw2 (some weights2.id) .default
  let bias1 ← newVec
  resizeTo bias1 ⟨n_hidden, 1, 1⟩
  Utilities.bias_initializationv gb1 (some bias1.id)
  let bias2 ← newVec
  resizeTo bias2 ⟨size.x, 1, 1⟩
  Utilities.bias_initializationv gb2 (some bias2.id)
  pure ⟨true, input_set, some y_hat, some weights1, some weights2, some bias1, some bias2, none, none, size.y, size.x, n_hidden⟩

end AutoEncoder
end
end Verif
