import Verif.Model.Glm
import Verif.Model.KMeans

/-!
# `MLPPExpReg` (modules/exp_reg): `y = Σ initial_i * weights_i ^ x_i + bias`

An object is a `Glm` (Model/Glm.lean) with the fields `_input_set`, `_output_set`, `_y_hat`, `_weights`, `_bias`, `_n`, `_k`, `_reg`, `_lambda`,
`_alpha` (exp_reg.h:75-90), and the handle `_initial`, which no method replaces and which is given to the methods as the parameter `a`. The cost is
that of linear regression. Not modelled: printing (`ui`), `save` (its body is commented out). `Math::pow` of a negative number is not modelled
faithfully (`Real.rpow` instead of NaN).
-/

namespace Verif
noncomputable section
namespace ExpReg
open Glm

/-- `cost(y_hat, y)`, exp_reg.cpp:289-294: the text of linear regression. -/
def cost (s : Glm) (y_hat y : Ref) : M ℝ ℝ := Glm.cost LinReg.fns s y_hat y

/-- `evaluatev(x)`, exp_reg.cpp:296-304. -/
def evaluatev (s : Glm) (a x : Ref) : M ℝ ℝ := do
  let n ← Hd.size x
  let y ← foldN n (0 : ℝ) fun i y => do
    let ai ← Hd.element_get a i
    let wi ← Hd.element_get s.weights i
    let xi ← Hd.element_get x i
    pure (y + ai * MathFns.pow wi xi)
  pure (y + s.bias)

/-- The inner loop of `evaluatem(X)`, exp_reg.cpp:314-316. -/
def rowSum (s : Glm) (a X : Ref) (i k : Nat) : M ℝ ℝ :=
  foldN k (0 : ℝ) fun j y => do
    let aj ← Hd.element_get a j
    let wj ← Hd.element_get s.weights j
    let x ← Hd.element_getm X i j
    pure (y + aj * MathFns.pow wj x)

/-- `evaluatem(X)`, exp_reg.cpp:306-324. -/
def evaluatem (s : Glm) (a X : Ref) : M ℝ Ref := do
  let size ← Hd.sizem X
  let y_hat ← newVec
  resizeTo y_hat ⟨size.y, 1, 1⟩
  forN size.y fun i => do
    let y ← rowSum s a X i size.x
    Hd.element_set (some y_hat) i (y + s.bias)
  pure (some y_hat)

/-- `forward_pass()`, exp_reg.cpp:327-329. -/
def forward_pass (s : Glm) (a : Ref) : M ℝ Glm := do
  let y_hat ← evaluatem s a s.input_set
  pure { s with y_hat := y_hat }

/-- `model_set_test(X)`, exp_reg.cpp:40-42. -/
def model_set_test (s : Glm) (a X : Ref) : M ℝ Ref := evaluatem s a X

/-- `model_test(x)`, exp_reg.cpp:44-46. -/
def model_test (s : Glm) (a x : Ref) : M ℝ ℝ := evaluatev s a x

/-- The sum of the weight gradient, exp_reg.cpp:63-66 and 199-202: the factor `_initial[i]` is missing. -/
def weightSum (weights error X : Ref) (n i : Nat) : M ℝ ℝ :=
  foldN n (0 : ℝ) fun j sum => do
    let e ← Hd.element_get error j
    let x ← Hd.element_getm X j i
    let w ← Hd.element_get weights i
    pure (sum + e * x * MathFns.pow w (x - 1))

/-- The sum of the gradient of `_initial`, exp_reg.cpp:70-73 and 206-209. -/
def initialSum (weights error X : Ref) (n i : Nat) : M ℝ ℝ :=
  foldN n (0 : ℝ) fun j sum => do
    let e ← Hd.element_get error j
    let w ← Hd.element_get weights i
    let x ← Hd.element_getm X j i
    pure (sum + e * MathFns.pow w x)

/-- `v->element_set(i, v->element_get(i) - d)`, exp_reg.cpp:78-79, 150-151, 214-215. -/
def lower (v : Ref) (i : Nat) (d : ℝ) : M ℝ Unit := do
  let x ← Hd.element_get v i
  Hd.element_set v i (x - d)

/-- One column of the loop of `gradient_descent`, exp_reg.cpp:61-80 (`target = i`), and of `mbgd`, exp_reg.cpp:197-216, where `target` is the number of
the batch. -/
def column (s : Glm) (a error X : Ref) (n : Nat) (learning_rate : ℝ) (target i : Nat) : M ℝ Unit := do
  let sum ← weightSum s.weights error X n i
  let sum2 ← initialSum s.weights error X n i
  lower s.weights target (learning_rate * (sum / n))
  lower a target (learning_rate * (sum2 / n))

/-- The sum of the bias gradient, exp_reg.cpp:85-88. -/
def biasSum (y_hat y : Ref) (n : Nat) : M ℝ ℝ :=
  foldN n (0 : ℝ) fun j sum => do
    let p ← Hd.element_get y_hat j
    let q ← Hd.element_get y j
    pure (sum + (p - q))

/-- The body of the loop of `gradient_descent`, exp_reg.cpp:57-94. -/
def gdBody (learning_rate : ℝ) (a : Ref) (s : Glm) : M ℝ Glm := do
  let _ ← cost s s.y_hat s.output_set
  let error ← Hd.subn s.y_hat s.output_set
  forN s.k fun i => column s a error s.input_set s.n learning_rate i i
  let s ← regularize s
  let sum ← biasSum s.y_hat s.output_set s.n
  let s := { s with bias := s.bias - learning_rate * (sum / s.n) }
  forward_pass s a

/-- `gradient_descent(learning_rate, max_epoch, ui)`, exp_reg.cpp:48-107. -/
def gradient_descent (s : Glm) (a : Ref) (learning_rate : ℝ) (max_epoch : Int) : M ℝ Glm := do
  let s ← forward_pass s a
  epochs max_epoch s fun _ s => gdBody learning_rate a s

/-- One column of the loop of `sgd`, exp_reg.cpp:143-152. -/
def sgdColumn (s : Glm) (a row : Ref) (p : Nat) (error learning_rate : ℝ) (i : Nat) : M ℝ Unit := do
  let x ← Hd.element_get row i
  let w ← Hd.element_get s.weights i
  let x' ← Hd.element_getm s.input_set p i
  lower s.weights i (learning_rate * (error * x * MathFns.pow w (x' - 1)))
  lower a i (learning_rate * (error * MathFns.pow w x'))

/-- The body of the loop of `sgd`, exp_reg.cpp:131-162. -/
def sgdBody (learning_rate : ℝ) (a : Ref) (row out yh : Loc) (p : Nat) (s : Glm) : M ℝ Glm := do
  Hd.row_get_into s.input_set (p : Int) (some row)
  let y ← Hd.element_get s.output_set (p : Int)
  Hd.element_set (some out) 0 y
  let y_hat ← evaluatev s a (some row)
  Hd.element_set (some yh) 0 y_hat
  let _ ← cost s (some yh) (some out)
  forN s.k fun i => sgdColumn s a (some row) p (y_hat - y) learning_rate i
  let s ← regularize s
  let s := { s with bias := s.bias - learning_rate * (y_hat - y) }
  let _ ← evaluatev s a (some row)
  pure s

/-- `sgd(learning_rate, max_epoch, ui)`, exp_reg.cpp:109-176. `pick e` is the row drawn in epoch `e`. -/
def sgd (s : Glm) (a : Ref) (pick : Nat → Nat) (learning_rate : ℝ) (max_epoch : Int) : M ℝ Glm :=
  if s.n = 0 then ub else do
    let size ← Hd.sizem s.input_set
    let row ← newVec
    resizeTo row ⟨size.x, 1, 1⟩
    let yh ← newVec
    resizeTo yh ⟨1, 1, 1⟩
    let out ← newVec
    resizeTo out ⟨1, 1, 1⟩
    let s ← epochs max_epoch s fun e s => sgdBody learning_rate a row out yh (pick e) s
    forward_pass s a

/-- The loop over the batches of `mbgd`, exp_reg.cpp:189-234; the gradient of every column goes to the element with the number of the *batch*, and
the bias is not changed. -/
def mbBody (learning_rate : ℝ) (a : Ref) (i : Nat) (X y : Ref) (s : Glm) : M ℝ Glm := do
  let y_hat ← evaluatem s a X
  let _ ← cost s y_hat y
  let error ← Hd.subn y_hat y
  let size ← Hd.size y
  forN s.k fun j => column s a error X size learning_rate i j
  let s ← regularize s
  let _ ← evaluatem s a X
  pure s

/-- `mbgd(learning_rate, max_epoch, mini_batch_size, ui)`, exp_reg.cpp:178-243. -/
def mbgd (s : Glm) (a : Ref) (learning_rate : ℝ) (max_epoch mini_batch_size : Int) : M ℝ Glm :=
  if mini_batch_size = 0 then ub else do
    let n_mini_batch := (s.n : Int).tdiv mini_batch_size
    let batches ← Utilities.create_mini_batchesmv s.input_set s.output_set n_mini_batch
    let s ← epochs max_epoch s fun _ s =>
      foldN n_mini_batch.toNat s fun i s => do
        let X ← batchAt batches.1 i
        let y ← batchAt batches.2 i
        mbBody learning_rate a i X y s
    forward_pass s a

/-- `score()`, exp_reg.cpp:245-249. -/
def score (s : Glm) : M ℝ ℝ := Utilities.performance_vec s.y_hat.vec s.output_set.vec

/-- The constructor with data, exp_reg.cpp:257-282; the result is the object and `_initial`. -/
def create (gw ga gb : Utilities.Source) (p_input_set p_output_set : Ref) (p_reg : Reg.Kind) (p_lambda p_alpha : ℝ) : M ℝ (Glm × Ref) := do
  let size ← Hd.sizem p_input_set
  let y_hat ← newVec
  resizeTo y_hat ⟨size.y, 1, 1⟩
  let weights ← newVec
  resizeTo weights ⟨size.x, 1, 1⟩
  Utilities.weight_initializationv gw (some weights.id) .default
  let a ← newVec
  resizeTo a ⟨size.x, 1, 1⟩
  Utilities.weight_initializationv ga (some a.id) .default
  let bias ← Utilities.bias_initializationr gb
  pure (⟨true, p_input_set, p_output_set, none, some y_hat, some weights, bias, p_reg, p_lambda, p_alpha, size.y, size.x⟩, some a)

end ExpReg
end
end Verif
