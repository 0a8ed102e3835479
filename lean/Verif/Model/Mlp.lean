import Verif.Model.Glm
import Verif.Model.HandleM

/-!
# `MLPPMLP` (modules/mlp)

An object is a structure of its fields (mlp.h:107-129), as in Model/Glm.lean. Not modelled: printing (`UI`), the binding of methods, `save` (its
body is commented out).
-/

namespace Verif
noncomputable section

/-- The fields of mlp.h:107-129. -/
structure Mlp where
  initialized : Bool
  input_set : Ref
  output_set : Ref
  y_hat : Ref
  weights1 : Ref
  weights2 : Ref
  bias1 : Ref
  bias2 : ℝ
  z2 : Ref
  a2 : Ref
  n_hidden : Nat
  reg : Reg.Kind
  lambda : ℝ
  alpha : ℝ
  n : Nat
  k : Nat

namespace Mlp
open Glm (epochs batchAt)

/-- `cost(y_hat, y)`, mlp.cpp:375-380. -/
def cost (s : Mlp) (y_hat y : Ref) : M ℝ ℝ := do
  let c ← Cost.log_lossv y_hat y
  let r ← Reg.reg_termv s.weights2 s.lambda s.alpha s.reg
  let q ← Reg.reg_termm s.weights1 s.lambda s.alpha s.reg
  pure (c + r + q)

/-- `evaluatem(X)`, mlp.cpp:382-389. -/
def evaluatem (s : Mlp) (X : Ref) : M ℝ Ref := do
  let p ← Hd.multn X s.weights1
  let pz2 ← Hd.add_vecn p s.bias1
  let pa2 ← Activation.sigmoid_normm pz2
  let q ← Hd.mult_vec pa2 s.weights2
  let r ← Hd.scalar_addn q s.bias2
  Activation.sigmoid_normv r

/-- `propagatem(X, z2_out, a2_out)`, mlp.cpp:391-396. -/
def propagatem (s : Mlp) (X z2_out a2_out : Ref) : M ℝ Unit := do
  let p ← Hd.multn X s.weights1
  let q ← Hd.add_vecn p s.bias1
  Hd.set_from_mlpp_matrix z2_out q
  let a ← Activation.sigmoid_normm z2_out
  Hd.set_from_mlpp_matrix a2_out a

/-- `evaluatev(x)`, mlp.cpp:398-405. -/
def evaluatev (s : Mlp) (x : Ref) : M ℝ ℝ := do
  let t ← Hd.transposen s.weights1
  let p ← Hd.mult_vec t x
  let pz2 ← Hd.addn p s.bias1
  let pa2 ← Activation.sigmoid_normv pz2
  let d ← Hd.dot s.weights2 pa2
  pure (Activation.sigmoid_normr (d + s.bias2))

/-- `propagatev(x, z2_out, a2_out)`, mlp.cpp:407-412. -/
def propagatev (s : Mlp) (x z2_out a2_out : Ref) : M ℝ Unit := do
  let t ← Hd.transposen s.weights1
  let p ← Hd.mult_vec t x
  let q ← Hd.addn p s.bias1
  Hd.set_from_mlpp_vector z2_out q
  let a ← Activation.sigmoid_normv z2_out
  Hd.set_from_mlpp_vector a2_out a

/-- `forward_pass()`, mlp.cpp:414-421: the first two statements have the text of `propagatem`. -/
def forward_pass (s : Mlp) : M ℝ Unit := do
  propagatem s s.input_set s.z2 s.a2
  let q ← Hd.mult_vec s.a2 s.weights2
  let r ← Hd.scalar_addn q s.bias2
  let o ← Activation.sigmoid_normv r
  Hd.set_from_mlpp_vector s.y_hat o

/-- `model_set_test(X)`, mlp.cpp:101-103. -/
def model_set_test (s : Mlp) (X : Ref) : M ℝ Ref := evaluatem s X

/-- `model_test(x)`, mlp.cpp:105-107. -/
def model_test (s : Mlp) (x : Ref) : M ℝ ℝ := evaluatev s x

/-- The update of the second layer from its errors, mlp.cpp:128-135 and 280-293. `n` is the number of samples. -/
def update2 (s : Mlp) (a2 error : Ref) (learning_rate : ℝ) (n : Nat) : M ℝ Mlp := do
  let t ← Hd.transposen a2
  let D2_1 ← Hd.mult_vec t error
  let d ← Hd.scalar_multiplyn D2_1 (learning_rate / n)
  Hd.sub s.weights2 d
  let w ← Reg.reg_weightsv s.weights2 s.lambda s.alpha s.reg
  Hd.set_from_mlpp_vector s.weights2 w
  let e ← Hd.sum_elements error
  pure { s with bias2 := s.bias2 - learning_rate * e / n }

/-- The update of the first layer, mlp.cpp:137-147 and 295-304: `_weights2` has been updated already. -/
def update1 (s : Mlp) (X z2 error : Ref) (learning_rate : ℝ) (n : Nat) : M ℝ Unit := do
  let D1_1 ← Hd.outer_product error s.weights2
  let g ← Activation.sigmoid_derivm z2
  let D1_2 ← Hd.hadamard_productnm D1_1 g
  let t ← Hd.transposen X
  let D1_3 ← Hd.multn t D1_2
  let d ← Hd.scalar_multiplynm D1_3 (learning_rate / n)
  Hd.subm s.weights1 d
  let w ← Reg.reg_weightsm s.weights1 s.lambda s.alpha s.reg
  Hd.set_from_mlpp_matrix s.weights1 w
  let b ← Hd.scalar_multiplynm D1_2 (learning_rate / n)
  Hd.subtract_matrix_rows s.bias1 b

/-- The body of the loop of `gradient_descent`, mlp.cpp:121-149. -/
def gdBody (learning_rate : ℝ) (s : Mlp) : M ℝ Mlp := do
  let _ ← cost s s.y_hat s.output_set
  let error ← Hd.subn s.y_hat s.output_set
  let s ← update2 s s.a2 error learning_rate s.n
  update1 s s.input_set s.z2 error learning_rate s.n
  forward_pass s
  pure s

/-- `gradient_descent(learning_rate, max_epoch, UI)`, mlp.cpp:109-166. -/
def gradient_descent (s : Mlp) (learning_rate : ℝ) (max_epoch : Int) : M ℝ Mlp :=
  if s.initialized then do
    Hd.fillv s.y_hat 0
    forward_pass s
    epochs max_epoch s fun _ s => gdBody learning_rate s
  else pure s

/-- The body of the loop of `sgd`, mlp.cpp:197-230. -/
def sgdBody (row out yh lz2 la2 : Ref) (i : Int) (learning_rate : ℝ) (s : Mlp) : M ℝ Mlp := do
  Hd.row_get_into s.input_set i row
  let y ← Hd.element_get s.output_set i
  Hd.element_set out 0 y
  let ly_hat ← evaluatev s row
  Hd.element_set yh 0 ly_hat
  propagatev s row lz2 la2
  let _ ← cost s yh out
  let error := ly_hat - y
  let D2_1 ← Hd.scalar_multiplyn la2 error
  let d ← Hd.scalar_multiplyn D2_1 learning_rate
  Hd.sub s.weights2 d
  let w ← Reg.reg_weightsv s.weights2 s.lambda s.alpha s.reg
  Hd.set_from_mlpp_vector s.weights2 w
  let s := { s with bias2 := s.bias2 - learning_rate * error }
  let D1_1 ← Hd.scalar_multiplyn s.weights2 error
  let g ← Activation.sigmoid_derivv lz2
  let D1_2 ← Hd.hadamard_productn D1_1 g
  let D1_3 ← Hd.outer_product row D1_2
  let d ← Hd.scalar_multiplynm D1_3 learning_rate
  Hd.subm s.weights1 d
  let w ← Reg.reg_weightsm s.weights1 s.lambda s.alpha s.reg
  Hd.set_from_mlpp_matrix s.weights1 w
  let b ← Hd.scalar_multiplyn D1_2 learning_rate
  Hd.sub s.bias1 b
  let _ ← evaluatev s row
  pure s

/-- `sgd(learning_rate, max_epoch, UI)`, mlp.cpp:168-248. `pick e` is the row drawn in epoch `e`; with no rows the bounds of the distribution are in
the wrong order, which is undefined. -/
def sgd (s : Mlp) (pick : Nat → Nat) (learning_rate : ℝ) (max_epoch : Int) : M ℝ Mlp :=
  if s.initialized then
    if s.n = 0 then ub else do
      let size ← Hd.sizem s.input_set
      let row ← newVec
      resizeTo row ⟨size.x, 1, 1⟩
      let out ← newVec
      resizeTo out ⟨1, 1, 1⟩
      let yh ← newVec
      resizeTo yh ⟨1, 1, 1⟩
      let lz2 ← newVec
      let la2 ← newVec
      let s ← epochs max_epoch s fun e s => sgdBody (some row) (some out) (some yh) (some lz2) (some la2) (pick e) learning_rate s
      forward_pass s
      pure s
  else pure s

/-- The body of the loop over the mini-batches, mlp.cpp:269-306. -/
def mbgdBody (lz2 la2 X y : Ref) (learning_rate : ℝ) (s : Mlp) : M ℝ Mlp := do
  let ly_hat ← evaluatem s X
  propagatem s X lz2 la2
  let _ ← cost s ly_hat y
  let error ← Hd.subn ly_hat y
  let size ← Hd.size y
  let s ← update2 s la2 error learning_rate size
  update1 s X lz2 error learning_rate size
  let y_hat ← evaluatem s X
  pure { s with y_hat := y_hat }

/-- `mbgd(learning_rate, max_epoch, mini_batch_size, UI)`, mlp.cpp:250-325. -/
def mbgd (s : Mlp) (learning_rate : ℝ) (max_epoch mini_batch_size : Int) : M ℝ Mlp :=
  if s.initialized then do
    let lz2 ← newMat
    let la2 ← newMat
    if mini_batch_size = 0 then ub else do
      let n_mini_batch := (s.n : Int).tdiv mini_batch_size
      let batches ← Utilities.create_mini_batchesmv s.input_set s.output_set n_mini_batch
      let s ← epochs max_epoch s fun _ s =>
        foldN n_mini_batch.toNat s fun i s => do
          let X ← batchAt batches.1 i
          let y ← batchAt batches.2 i
          mbgdBody (some lz2) (some la2) X y learning_rate s
      forward_pass s
      pure s
  else pure s

/-- `score()`, mlp.cpp:327-330. -/
def score (s : Mlp) : M ℝ ℝ := Utilities.performance_vec s.y_hat.vec s.output_set.vec

/-- `initialize()`, mlp.cpp:344-373. `gw1`, `gw2`, `gb1`, `gb2` are the random numbers drawn. `_n_hidden` is a natural number here; a negative one
would make the resizing fail. -/
def initialize_ (gw1 gw2 gb1 gb2 : Utilities.Source) (s : Mlp) : M ℝ Mlp :=
  if s.initialized then pure s else
    match s.input_set, s.output_set with
    | none, _ => pure s
    | _, none => pure s
    | some _, some _ =>
      if s.n_hidden = 0 then pure s else do
        let size ← Hd.sizem s.input_set
        Hd.resizev s.y_hat size.y
        Hd.resizem s.weights1 ⟨s.n_hidden, size.x, 1⟩
        Hd.resizev s.weights2 s.n_hidden
        Hd.resizev s.bias1 s.n_hidden
        Utilities.weight_initializationm gw1 s.weights1.mat .default
        Utilities.weight_initializationv gw2 s.weights2.vec .default
        Utilities.bias_initializationv gb1 s.bias1.vec
        let b ← Utilities.bias_initializationr gb2
        let z2 ← newMat
        let a2 ← newMat
        pure { s with n := size.y, k := size.x, bias2 := b, z2 := some z2, a2 := some a2, initialized := true }

/-- `MLPPMLP(input_set, output_set, n_hidden, reg, lambda, alpha)`, mlp.cpp:423-443. -/
def create (gw1 gw2 gb1 gb2 : Utilities.Source) (input_set output_set : Ref) (n_hidden : Nat) (reg : Reg.Kind) (lambda alpha : ℝ) : M ℝ Mlp := do
  let y_hat ← newVec
  let weights1 ← newMat
  let weights2 ← newVec
  let z2 ← newMat
  let a2 ← newMat
  let bias1 ← newVec
  initialize_ gw1 gw2 gb1 gb2 ⟨false, input_set, output_set, some y_hat, some weights1, some weights2, some bias1, 0, some z2, some a2, n_hidden,
    reg, lambda, alpha, 0, 0⟩

/-- `set_input_set(val)`, mlp.cpp:50-54. -/
def set_input_set (s : Mlp) (val : Ref) : Mlp := { s with input_set := val, initialized := false }
/-- `set_output_set(val)`, mlp.cpp:59-63. -/
def set_output_set (s : Mlp) (val : Ref) : Mlp := { s with output_set := val, initialized := false }
/-- `set_lambda(val)`, mlp.cpp:77-81. -/
def set_lambda (s : Mlp) (val : ℝ) : Mlp := { s with lambda := val, initialized := false }
/-- `set_n_hidden(val)`, mlp.cpp:68-72. -/
def set_n_hidden (s : Mlp) (val : Nat) : Mlp := { s with n_hidden := val, initialized := false }
/-- `set_alpha(val)`, mlp.cpp:86-90. -/
def set_alpha (s : Mlp) (val : ℝ) : Mlp := { s with alpha := val, initialized := false }
/-- `set_reg(val)`, mlp.cpp:95-99. -/
def set_reg (s : Mlp) (val : Reg.Kind) : Mlp := { s with reg := val, initialized := false }

/-- `get_input_set()`, mlp.cpp:47-49. -/
def get_input_set (s : Mlp) : Ref := s.input_set
/-- `get_output_set()`, mlp.cpp:56-58. -/
def get_output_set (s : Mlp) : Ref := s.output_set
/-- `get_n_hidden()`, mlp.cpp:65-67. -/
def get_n_hidden (s : Mlp) : Nat := s.n_hidden
/-- `get_lambda()`, mlp.cpp:74-76. -/
def get_lambda (s : Mlp) : ℝ := s.lambda
/-- `get_alpha()`, mlp.cpp:83-85. -/
def get_alpha (s : Mlp) : ℝ := s.alpha
/-- `get_reg()`, mlp.cpp:92-94. -/
def get_reg (s : Mlp) : Reg.Kind := s.reg
/-- `is_initialized()`, mlp.cpp:340-342. -/
def is_initialized (s : Mlp) : Bool := s.initialized

/-- `MLPPMLP()`, mlp.cpp:445-464. -/
def blank : M ℝ Mlp := do
  let y_hat ← newVec
  let weights1 ← newMat
  let weights2 ← newVec
  let bias1 ← newVec
  let z2 ← newMat
  let a2 ← newMat
  pure ⟨false, none, none, some y_hat, some weights1, some weights2, some bias1, 0, some z2, some a2, 0, .none, 1 / 2, 1 / 2, 0, 0⟩

/-- A call on an object: of a setter, of `initialize`, or of a method of training. -/
inductive Call where
  | set_input_set (val : Ref)
  | set_output_set (val : Ref)
  | set_n_hidden (val : Nat)
  | set_lambda (val : ℝ)
  | set_alpha (val : ℝ)
  | set_reg (val : Reg.Kind)
  | initialize_ (gw1 gw2 gb1 gb2 : Utilities.Source)
  | gradient_descent (learning_rate : ℝ) (max_epoch : Int)
  | sgd (pick : Nat → Nat) (learning_rate : ℝ) (max_epoch : Int)
  | mbgd (learning_rate : ℝ) (max_epoch mini_batch_size : Int)

/-- What a call does to the object. -/
def call (s : Mlp) : Call → M ℝ Mlp
  | .set_input_set v => pure (Mlp.set_input_set s v)
  | .set_output_set v => pure (Mlp.set_output_set s v)
  | .set_n_hidden v => pure (Mlp.set_n_hidden s v)
  | .set_lambda v => pure (Mlp.set_lambda s v)
  | .set_alpha v => pure (Mlp.set_alpha s v)
  | .set_reg v => pure (Mlp.set_reg s v)
  | .initialize_ gw1 gw2 gb1 gb2 => Mlp.initialize_ gw1 gw2 gb1 gb2 s
  | .gradient_descent lr e => Mlp.gradient_descent s lr e
  | .sgd pick lr e => Mlp.sgd s pick lr e
  | .mbgd lr e b => Mlp.mbgd s lr e b

/-- A history of calls. -/
def run (s : Mlp) : List Call → M ℝ Mlp
  | [] => pure s
  | c :: hist => do
    let s ← call s c
    run s hist

end Mlp
end
end Verif
