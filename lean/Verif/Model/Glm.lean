import Verif.Model.Handle
import Verif.Model.Cost
import Verif.Model.Utilities
import Verif.Model.Stat

/-!
# Linear models with a link function

`MLPPLinReg`, `MLPPLogReg`, `MLPPTanhReg`, `MLPPProbitReg`, `MLPPCLogLogReg` (modules/lin_reg, log_reg, tanh_reg, probit_reg,
c_log_log_reg). An object is a structure of its fields; a method takes the structure and, if it changes fields, returns the new one. A
handle field is null or refers to an object of the heap. Most methods have the same text in all five classes, except for the functions of
`MLPPActivation` and `MLPPCost` they call: these are collected in a `Glm.Fns`, and the shared text is written once.

Not modelled: printing (`ui`), the binding of methods, `save` (its body is commented out). `epoch` does not overflow. `real_t` is the real
numbers: `Math::is_nan` is false, and a division by zero gives 0.
-/

namespace Verif
open Utilities (create_mini_batchesmv)
noncomputable section

/-- The fields of lin_reg.h:104-118, log_reg.h, tanh_reg.h:108-122, probit_reg.h:109-122, c_log_log_reg.h. Not every class has every one. -/
structure Glm where
  initialized : Bool
  input_set : Ref
  output_set : Ref
  z : Ref
  y_hat : Ref
  weights : Ref
  bias : ℝ
  reg : Reg.Kind
  lambda : ℝ
  alpha : ℝ
  n : Nat
  k : Nat

namespace Glm

/-- The functions in which the classes differ: the activation on numbers and vectors, its derivative on vectors, the loss, and whether
`forward_pass` stores `_z`. -/
structure Fns where
  normr : ℝ → ℝ
  normv : Ref → M ℝ Ref
  derivv : Ref → M ℝ Ref
  loss : Ref → Ref → M ℝ ℝ
  usesZ : Bool

/-- `while (true) { … epoch++; if (epoch > max_epoch) break; }` with `epoch` starting at 1: lin_reg.cpp:146-176 and every other training
method. The body is run at least once. -/
def epochs {σ : Type} (max_epoch : Int) (s : σ) (body : Nat → σ → M ℝ σ) : M ℝ σ :=
  foldN (max 1 max_epoch.toNat) s fun i s => body (i + 1) s

/-- `cost(y_hat, y)`: lin_reg.cpp:773-778, log_reg.cpp:336-341, tanh_reg.cpp:364-369, probit_reg.cpp:402-407, c_log_log_reg.cpp:265-270. -/
def cost (F : Fns) (s : Glm) (y_hat y : Ref) : M ℝ ℝ := do
  let c ← F.loss y_hat y
  let r ← Reg.reg_termv s.weights s.lambda s.alpha s.reg
  pure (c + r)

/-- `propagatev(x)`: tanh_reg.cpp:377-379, probit_reg.cpp:425-427, c_log_log_reg.cpp:278-280. -/
def propagatev (s : Glm) (x : Ref) : M ℝ ℝ := do
  let d ← Hd.dot s.weights x
  pure (d + s.bias)

/-- `evaluatev(x)`: lin_reg.cpp:780-782, log_reg.cpp:343-347, tanh_reg.cpp:371-375, probit_reg.cpp:419-423, c_log_log_reg.cpp:272-276. -/
def evaluatev (F : Fns) (s : Glm) (x : Ref) : M ℝ ℝ := do
  let d ← Hd.dot s.weights x
  pure (F.normr (d + s.bias))

/-- `propagatem(X)`: tanh_reg.cpp:387-389, probit_reg.cpp:415-417, c_log_log_reg.cpp:288-290. -/
def propagatem (s : Glm) (X : Ref) : M ℝ Ref := do
  let p ← Hd.mult_vec X s.weights
  Hd.scalar_addn p s.bias

/-- `evaluatem(X)`: lin_reg.cpp:784-786, log_reg.cpp:349-353, tanh_reg.cpp:381-385, probit_reg.cpp:409-413, c_log_log_reg.cpp:282-286. -/
def evaluatem (F : Fns) (s : Glm) (X : Ref) : M ℝ Ref := do
  let p ← Hd.mult_vec X s.weights
  let q ← Hd.scalar_addn p s.bias
  F.normv q

/-- `forward_pass()`: lin_reg.cpp:789-791, log_reg.cpp:356-358 (without `_z`); tanh_reg.cpp:392-397, probit_reg.cpp:430-435,
c_log_log_reg.cpp:293-298. -/
def forward_pass (F : Fns) (s : Glm) : M ℝ Glm :=
  if F.usesZ then do
    let z ← propagatem s s.input_set
    let y_hat ← F.normv z
    pure { s with z := z, y_hat := y_hat }
  else do
    let y_hat ← evaluatem F s s.input_set
    pure { s with y_hat := y_hat }

/-- `_weights = regularization.reg_weightsv(_weights, _lambda, _alpha, _reg)`, e.g. lin_reg.cpp:159. -/
def regularize (s : Glm) : M ℝ Glm := do
  let w ← Reg.reg_weightsv s.weights s.lambda s.alpha s.reg
  pure { s with weights := w }

/-- `_weights->sub(d)` and the regularisation, e.g. lin_reg.cpp:158-159. -/
def subStep (s : Glm) (d : Ref) : M ℝ Glm := do
  Hd.sub s.weights d
  regularize s

/-- `_weights->add(d)` and the regularisation, e.g. log_reg.cpp:153-154. -/
def addStep (s : Glm) (d : Ref) : M ℝ Glm := do
  Hd.add s.weights d
  regularize s

/-- `X->transposen()->mult_vec(error)->scalar_multiplyn(c)`, e.g. lin_reg.cpp:158. -/
def gradient (X error : Ref) (c : ℝ) : M ℝ Ref := do
  let t ← Hd.transposen X
  let g ← Hd.mult_vec t error
  Hd.scalar_multiplyn g c

/-- `gradient_descent(learning_rate, max_epoch, ui)` without the check of `_initialized`: lin_reg.cpp:145-176, log_reg.cpp:103-134. -/
def gradient_descent (F : Fns) (s : Glm) (learning_rate : ℝ) (max_epoch : Int) : M ℝ Glm := do
  let s ← forward_pass F s
  epochs max_epoch s fun _ s => do
    let _ ← cost F s s.y_hat s.output_set
    let error ← Hd.subn s.y_hat s.output_set
    let d ← gradient s.input_set error (learning_rate / s.n)
    let s ← subStep s d
    let e ← Hd.sum_elements error
    let s := { s with bias := s.bias - learning_rate * e / s.n }
    forward_pass F s

/-- `mle(learning_rate, max_epoch, ui)` without the check of `_initialized`: log_reg.cpp:140-171. -/
def mle (F : Fns) (s : Glm) (learning_rate : ℝ) (max_epoch : Int) : M ℝ Glm := do
  let s ← forward_pass F s
  epochs max_epoch s fun _ s => do
    let _ ← cost F s s.y_hat s.output_set
    let error ← Hd.subn s.output_set s.y_hat
    let d ← gradient s.input_set error (learning_rate / s.n)
    let s ← addStep s d
    let e ← Hd.sum_elements error
    let s := { s with bias := s.bias + learning_rate * e / s.n }
    forward_pass F s

/-- `error->hadamard_productn(avn.…_derivv(z))`, e.g. tanh_reg.cpp:183. -/
def chain (F : Fns) (error z : Ref) : M ℝ Ref := do
  let d ← F.derivv z
  Hd.hadamard_productn error d

/-- `train_gradient_descent(learning_rate, max_epoch, ui)` without the checks: tanh_reg.cpp:172-203, probit_reg.cpp:132-162;
`gradient_descent`, c_log_log_reg.cpp:51-81. -/
def gradient_descent_z (F : Fns) (s : Glm) (learning_rate : ℝ) (max_epoch : Int) (n : Nat) : M ℝ Glm := do
  let s ← forward_pass F s
  epochs max_epoch s fun _ s => do
    let _ ← cost F s s.y_hat s.output_set
    let error ← Hd.subn s.y_hat s.output_set
    let c ← chain F error s.z
    let d ← gradient s.input_set c (learning_rate / n)
    let s ← subStep s d
    let c ← chain F error s.z
    let e ← Hd.sum_elements c
    let s := { s with bias := s.bias - learning_rate * e / n }
    forward_pass F s

/-- `error` in `train_mle`, probit_reg.cpp:179 (`flipped = true`), and in `mle`, c_log_log_reg.cpp:96 (`flipped = false`). -/
def mleError (flipped : Bool) (s : Glm) : M ℝ Ref :=
  if flipped then Hd.subn s.output_set s.y_hat else Hd.subn s.y_hat s.output_set

/-- `train_mle(learning_rate, max_epoch, ui)` without the checks: probit_reg.cpp:170-200 (`error` is `_output_set - _y_hat`,
`flipped = true`); `mle`, c_log_log_reg.cpp:88-116 (`error` is `_y_hat - _output_set`, `flipped = false`). -/
def mle_z (F : Fns) (flipped : Bool) (s : Glm) (learning_rate : ℝ) (max_epoch : Int) (n : Nat) : M ℝ Glm := do
  let s ← forward_pass F s
  epochs max_epoch s fun _ s => do
    let _ ← cost F s s.y_hat s.output_set
    let error ← mleError flipped s
    let c ← chain F error s.z
    let d ← gradient s.input_set c (learning_rate / n)
    let s ← addStep s d
    let c ← chain F error s.z
    let e ← Hd.sum_elements c
    let s := { s with bias := s.bias + learning_rate * e / n }
    forward_pass F s

/-- `sgd(learning_rate, max_epoch, ui)` without the checks: lin_reg.cpp:182-238, log_reg.cpp:177-232; `train_sgd`, tanh_reg.cpp:210-268,
probit_reg.cpp:206-266; `sgd`, c_log_log_reg.cpp:129-181.

* `pick e` is the row drawn in epoch `e`; `std::uniform_int_distribution<int>(0, n - 1)` is undefined for `n = 0`.
* `factor z y_hat` is the derivative of the activation as written in the class; 1 for the first two classes, which have none.
* `shown y_hat y` is the number put into the vector whose cost is computed.
* `step` is `_weights->sub(…)` and the regularisation. -/
def sgd (F : Fns) (factor shown : ℝ → ℝ → ℝ) (step : Glm → Ref → M ℝ Glm) (s : Glm) (n : Nat) (pick : Nat → Nat) (learning_rate : ℝ)
    (max_epoch : Int) : M ℝ Glm :=
  if n = 0 then ub else do
    let size ← Hd.sizem s.input_set
    let row ← newVec
    resizeTo row ⟨size.x, 1, 1⟩
    let out ← newVec
    resizeTo out ⟨1, 1, 1⟩
    let yh ← newVec
    resizeTo yh ⟨1, 1, 1⟩
    let s ← epochs max_epoch s fun e s => do
      Hd.row_get_into s.input_set (pick e : Int) (some row)
      let y ← Hd.element_get s.output_set (pick e : Int)
      Hd.element_set (some out) 0 y
      let y_hat ← evaluatev F s (some row)
      Hd.element_set (some yh) 0 (shown y_hat y)
      let z ← propagatev s (some row)
      let _ ← cost F s (some yh) (some out)
      let error := y_hat - y
      let d ← Hd.scalar_multiplyn (some row) (learning_rate * error * factor z y_hat)
      let s ← step s d
      pure { s with bias := s.bias - learning_rate * error * factor z y_hat }
    forward_pass F s

/-- `v[i]` of a `Vector<Ref<…>>`: an index out of range aborts. -/
def batchAt (v : List Ref) (i : Nat) : M ℝ Ref :=
  match v[i]? with
  | some r => pure r
  | none => crash

/-- The mini-batches of a training method, lin_reg.cpp:250-251, and the loops over epochs and batches, 253-283: `body epoch X y s`. -/
def overBatches {σ : Type} (input_set output_set : Ref) (n : Nat) (mini_batch_size max_epoch : Int) (init : M ℝ σ)
    (body : Nat → Ref → Ref → σ → M ℝ σ) : M ℝ σ :=
  if mini_batch_size = 0 then ub else do
    let n_mini_batch := (n : Int).tdiv mini_batch_size
    let batches ← create_mini_batchesmv input_set output_set n_mini_batch
    let s ← init
    epochs max_epoch s fun e s =>
      foldN n_mini_batch.toNat s fun i s => do
        let X ← batchAt batches.1 i
        let y ← batchAt batches.2 i
        body e X y s

/-- `mbgd(learning_rate, max_epoch, mini_batch_size, ui)` without the check of `_initialized`: lin_reg.cpp:244-284, log_reg.cpp:238-277. -/
def mbgd (F : Fns) (s : Glm) (learning_rate : ℝ) (max_epoch mini_batch_size : Int) : M ℝ Glm := do
  let s ← overBatches s.input_set s.output_set s.n mini_batch_size max_epoch (pure s) fun _ X y s => do
    let y_hat ← evaluatem F s X
    let _ ← cost F s y_hat y
    let error ← Hd.subn y_hat y
    let size ← Hd.size y
    let d ← gradient X error (learning_rate / size)
    let s ← subStep s d
    let e ← Hd.sum_elements error
    pure { s with bias := s.bias - learning_rate * e / size }
  forward_pass F s

/-- The constructors with data: lin_reg.cpp:744-766, log_reg.cpp:307-329, c_log_log_reg.cpp:239-258. `gw` and `gb` are the random numbers
drawn for the weights and for the bias. -/
def create (gw gb : Utilities.Source) (p_input_set p_output_set : Ref) (p_reg : Reg.Kind) (p_lambda p_alpha : ℝ) : M ℝ Glm := do
  let size ← Hd.sizem p_input_set
  let y_hat ← newVec
  resizeTo y_hat ⟨size.y, 1, 1⟩
  let weights ← newVec
  resizeTo weights ⟨size.x, 1, 1⟩
  Utilities.weight_initializationv gw (some weights.id) .default
  let bias ← Utilities.bias_initializationr gb
  pure ⟨true, p_input_set, p_output_set, none, some y_hat, some weights, bias, p_reg, p_lambda, p_alpha, size.y, size.x⟩

/-- `needs_init()`: tanh_reg.cpp:115-136, probit_reg.cpp:334-355. -/
def needs_init (s : Glm) : M ℝ Bool :=
  match s.input_set, s.output_set with
  | none, _ => pure true
  | _, none => pure true
  | some _, some _ => do
    let size ← Hd.sizem s.input_set
    let a ← Hd.size s.y_hat
    if a ≠ size.y then pure true else do
      let b ← Hd.size s.weights
      pure (b ≠ size.x)

/-- `initialize()`: tanh_reg.cpp:138-151, probit_reg.cpp:357-370. These classes have no `_n` and `_k`; the fields of the structure are set to
the sizes they use instead. -/
def initialize_ (gw gb : Utilities.Source) (s : Glm) : M ℝ Glm :=
  match s.input_set, s.output_set with
  | none, _ => pure s
  | _, none => pure s
  | some _, some _ => do
    let size ← Hd.sizem s.input_set
    let y_hat ← derefV s.y_hat
    resizeTo (.v y_hat) ⟨size.y, 1, 1⟩
    let weights ← derefV s.weights
    resizeTo (.v weights) ⟨size.x, 1, 1⟩
    Utilities.weight_initializationv gw (some weights) .default
    let bias ← Utilities.bias_initializationr gb
    pure { s with bias := bias, n := size.y, k := size.x }

/-- The constructors with data: tanh_reg.cpp:335-349, probit_reg.cpp:372-387. -/
def create_z (gw gb : Utilities.Source) (p_input_set p_output_set : Ref) (p_reg : Reg.Kind) (p_lambda p_alpha : ℝ) : M ℝ Glm := do
  let z ← newVec
  let y_hat ← newVec
  let weights ← newVec
  initialize_ gw gb ⟨true, p_input_set, p_output_set, some z, some y_hat, some weights, 0, p_reg, p_lambda, p_alpha, 0, 0⟩

end Glm

/-! ## `MLPPLinReg` -/

namespace LinReg
open Glm

/-- No activation, half squared error: lin_reg.cpp:773-791. -/
def fns : Fns := ⟨id, pure, pure, Cost.msev, false⟩

/-- `MLPPLinReg()`, lin_reg.cpp:768-770: the other fields are not initialised, the handles are null. -/
def blank (s : Glm) : Glm := { s with initialized := false, input_set := none, output_set := none, y_hat := none, weights := none }

/-- `model_set_test(X)`, lin_reg.cpp:89-93. -/
def model_set_test (s : Glm) (X : Ref) : M ℝ Ref := if s.initialized then evaluatem fns s X else pure none

/-- `model_test(x)`, lin_reg.cpp:95-99. -/
def model_test (s : Glm) (x : Ref) : M ℝ ℝ := if s.initialized then evaluatev fns s x else pure 0

/-- `gradient_descent(learning_rate, max_epoch, ui)`, lin_reg.cpp:142-177. -/
def gradient_descent (s : Glm) (learning_rate : ℝ) (max_epoch : Int) : M ℝ Glm :=
  if s.initialized then Glm.gradient_descent fns s learning_rate max_epoch else pure s

/-- `newton_raphson(learning_rate, max_epoch, ui)`, lin_reg.cpp:101-140. -/
def newton_raphson (s : Glm) (learning_rate : ℝ) (max_epoch : Int) : M ℝ Glm :=
  if s.initialized then do
    let s ← forward_pass fns s
    epochs max_epoch s fun _ s => do
      let _ ← cost fns s s.y_hat s.output_set
      let error ← Hd.subn s.y_hat s.output_set
      let t ← Hd.transposen s.input_set
      let first ← Hd.mult_vec t error
      let t2 ← Hd.transposen s.input_set
      let second ← Hd.multn t2 s.input_set
      let i ← Hd.inverse second
      let it ← Hd.transposen i
      let p ← Hd.mult_vec it first
      let d ← Hd.scalar_multiplyn p (learning_rate / s.n)
      let s ← subStep s d
      let e ← Hd.sum_elements error
      let s := { s with bias := s.bias - learning_rate * e / s.n }
      forward_pass fns s
  else pure s

/-- `sgd(learning_rate, max_epoch, ui)`, lin_reg.cpp:179-239: the vector `y_hat_tmp` is given the *output*, not the prediction. -/
def sgd (s : Glm) (pick : Nat → Nat) (learning_rate : ℝ) (max_epoch : Int) : M ℝ Glm :=
  if s.initialized then Glm.sgd fns (fun _ _ => 1) (fun _ y => y) subStep s s.n pick learning_rate max_epoch else pure s

/-- `mbgd(learning_rate, max_epoch, mini_batch_size, ui)`, lin_reg.cpp:241-285. -/
def mbgd (s : Glm) (learning_rate : ℝ) (max_epoch mini_batch_size : Int) : M ℝ Glm :=
  if s.initialized then Glm.mbgd fns s learning_rate max_epoch mini_batch_size else pure s

/-- `MLPPVector::create_vec_zero(_weights->size())`, e.g. lin_reg.cpp:299. -/
def zeros (s : Glm) : M ℝ Ref := do
  let n ← Hd.size s.weights
  Vec.vecn_zero (n : Int)

/-- The part of the adaptive methods that is the same in all of them, lin_reg.cpp:287-338 and up to 673. `look` changes the weights before
the prediction (`nag`, 361); `rule epoch weight_grad st` computes the new vectors and what is subtracted from the weights. `1 / size()` is an
integer division. The regularisation is part of the gradient. -/
def adaptive {σ : Type} (init : M ℝ σ) (look : σ → Glm → M ℝ Unit) (rule : Nat → Ref → σ → M ℝ (σ × Ref)) (s : Glm)
    (learning_rate : ℝ) (max_epoch mini_batch_size : Int) : M ℝ Glm :=
  if s.initialized then do
    let r ← overBatches s.input_set s.output_set s.n mini_batch_size max_epoch (do let st ← init; pure (st, s)) fun epoch X y r => do
      let s := r.2
      look r.1 s
      let y_hat ← evaluatem fns s X
      let _ ← cost fns s y_hat y
      let error ← Hd.subn y_hat y
      let size ← Hd.size y
      if size = 0 then ub else do
        let g ← gradient X error (((1 / size : Nat)) : ℝ)
        let r0 ← Reg.reg_deriv_termv s.weights s.lambda s.alpha s.reg
        let weight_grad ← Hd.addn g r0
        let q ← rule epoch weight_grad r.1
        Hd.sub s.weights q.2
        let e ← Hd.sum_elements error
        pure (q.1, { s with bias := s.bias - learning_rate * e / size })
    forward_pass fns r.2
  else pure s

/-- `momentum(…)`, lin_reg.cpp:287-339. -/
def momentum (s : Glm) (learning_rate : ℝ) (max_epoch mini_batch_size : Int) (gamma : ℝ) : M ℝ Glm :=
  adaptive (zeros s) (fun _ _ => pure ()) (fun _ weight_grad v => do
    let a ← Hd.scalar_multiplyn v gamma
    let b ← Hd.scalar_multiplyn weight_grad learning_rate
    let v ← Hd.addn a b
    pure (v, v)) s learning_rate max_epoch mini_batch_size

/-- `nag(…)`, lin_reg.cpp:341-395. -/
def nag (s : Glm) (learning_rate : ℝ) (max_epoch mini_batch_size : Int) (gamma : ℝ) : M ℝ Glm :=
  adaptive (zeros s) (fun v s => do
    let a ← Hd.scalar_multiplyn v gamma
    Hd.sub s.weights a) (fun _ weight_grad v => do
    let a ← Hd.scalar_multiplyn v gamma
    let b ← Hd.scalar_multiplyn weight_grad learning_rate
    let v ← Hd.addn a b
    pure (v, v)) s learning_rate max_epoch mini_batch_size

/-- `weight_grad->division_element_wisen(v->scalar_addn(e)->sqrtn())->scalar_multiplyn(learning_rate)`, lin_reg.cpp:432, 485. -/
def scaled (weight_grad v : Ref) (e learning_rate : ℝ) : M ℝ Ref := do
  let a ← Hd.scalar_addn v e
  let b ← Hd.sqrtn a
  let c ← Hd.division_element_wisen weight_grad b
  Hd.scalar_multiplyn c learning_rate

/-- `adagrad(…)`, lin_reg.cpp:397-447: `v` is replaced, not accumulated. -/
def adagrad (s : Glm) (learning_rate : ℝ) (max_epoch mini_batch_size : Int) (e : ℝ) : M ℝ Glm :=
  adaptive (zeros s) (fun _ _ => pure ()) (fun _ weight_grad _ => do
    let v ← Hd.hadamard_productn weight_grad weight_grad
    let d ← scaled weight_grad v e learning_rate
    pure (v, d)) s learning_rate max_epoch mini_batch_size

/-- `adadelta(…)`, lin_reg.cpp:449-500. -/
def adadelta (s : Glm) (learning_rate : ℝ) (max_epoch mini_batch_size : Int) (b1 e : ℝ) : M ℝ Glm :=
  adaptive (zeros s) (fun _ _ => pure ()) (fun _ weight_grad v => do
    let a ← Hd.scalar_multiplyn v b1
    let g2 ← Hd.hadamard_productn weight_grad weight_grad
    let b ← Hd.scalar_multiplyn g2 (1 - b1)
    let v ← Hd.addn a b
    let d ← scaled weight_grad v e learning_rate
    pure (v, d)) s learning_rate max_epoch mini_batch_size

/-- Two vectors of zeros, lin_reg.cpp:514-515. -/
def zeros2 (s : Glm) : M ℝ (Ref × Ref) := do
  let m ← zeros s
  let v ← zeros s
  pure (m, v)

/-- `x->scalar_multiplyn(b)->addn(y->scalar_multiplyn(c))`, e.g. lin_reg.cpp:532. -/
def blend (x : Ref) (b : ℝ) (y : Ref) (c : ℝ) : M ℝ Ref := do
  let p ← Hd.scalar_multiplyn x b
  let q ← Hd.scalar_multiplyn y c
  Hd.addn p q

/-- `x->division_element_wisen(v_hat->sqrtn()->scalar_addn(e))->scalar_multiplyn(learning_rate)`, lin_reg.cpp:538, 652. -/
def scaledHat (x v_hat : Ref) (e learning_rate : ℝ) : M ℝ Ref := do
  let a ← Hd.sqrtn v_hat
  let b ← Hd.scalar_addn a e
  let c ← Hd.division_element_wisen x b
  Hd.scalar_multiplyn c learning_rate

/-- `adam(…)`, lin_reg.cpp:502-558. -/
def adam (s : Glm) (learning_rate : ℝ) (max_epoch mini_batch_size : Int) (b1 b2 e : ℝ) : M ℝ Glm :=
  adaptive (zeros2 s) (fun _ _ => pure ()) (fun epoch weight_grad st => do
    let m ← blend st.1 b1 weight_grad (1 - b1)
    let g2 ← Hd.exponentiaten weight_grad 2
    let v ← blend st.2 b2 g2 (1 - b2)
    let m_hat ← Hd.scalar_multiplyn m (1 / (1 - b1 ^ (epoch : ℝ)))
    let v_hat ← Hd.scalar_multiplyn v (1 / (1 - b2 ^ (epoch : ℝ)))
    let d ← scaledHat m_hat v_hat e learning_rate
    pure ((m, v), d)) s learning_rate max_epoch mini_batch_size

/-- `adamax(…)`, lin_reg.cpp:560-613; `e` is not used. -/
def adamax (s : Glm) (learning_rate : ℝ) (max_epoch mini_batch_size : Int) (b1 b2 : ℝ) : M ℝ Glm :=
  adaptive (zeros2 s) (fun _ _ => pure ()) (fun epoch weight_grad st => do
    let m ← blend st.1 b1 weight_grad (1 - b1)
    let p ← Hd.scalar_multiplyn st.2 b2
    let q ← Hd.absn weight_grad
    let u ← Hd.maxn p q
    let m_hat ← Hd.scalar_multiplyn m (1 / (1 - b1 ^ (epoch : ℝ)))
    let c ← Hd.division_element_wisen m_hat u
    let d ← Hd.scalar_multiplyn c learning_rate
    pure ((m, u), d)) s learning_rate max_epoch mini_batch_size

/-- `nadam(…)`, lin_reg.cpp:615-674. -/
def nadam (s : Glm) (learning_rate : ℝ) (max_epoch mini_batch_size : Int) (b1 b2 e : ℝ) : M ℝ Glm :=
  adaptive (zeros2 s) (fun _ _ => pure ()) (fun epoch weight_grad st => do
    let m ← blend st.1 b1 weight_grad (1 - b1)
    let g2 ← Hd.exponentiaten weight_grad 2
    let v ← blend st.2 b2 g2 (1 - b2)
    let m_final ← blend m b1 weight_grad ((1 - b1) / (1 - b1 ^ (epoch : ℝ)))
    let _ ← Hd.scalar_multiplyn m (1 / (1 - b1 ^ (epoch : ℝ)))
    let v_hat ← Hd.scalar_multiplyn v (1 / (1 - b2 ^ (epoch : ℝ)))
    let d ← scaledHat m_final v_hat e learning_rate
    pure ((m, v), d)) s learning_rate max_epoch mini_batch_size

/-- The matrix whose inverse is taken, lin_reg.cpp:703-707: the branch on `_reg` is moved from the assignments into them. -/
def ridged (s : Glm) (b : Ref) : M ℝ Ref :=
  match s.reg with
  | .ridge => do
    let id ← Mat.identity_mat s.k
    let l ← Hd.scalar_multiplynm id s.lambda
    Hd.addnm b l
  | _ => pure b

/-- `x_means`, lin_reg.cpp:683-695: the means of the rows of `t`. -/
def rowMeans (t : Ref) : M ℝ Ref := do
  let ts ← Hd.sizem t
  let row ← newVec
  resizeTo row ⟨ts.x, 1, 1⟩
  let x_means ← newVec
  resizeTo x_means ⟨ts.y, 1, 1⟩
  forN ts.y fun i => do
    Hd.row_get_into t (i : Int) (some row)
    let μ ← Stat.meanv (some row.id)
    Hd.element_set (some x_means) (i : Int) μ
  pure (some x_means)

/-- `normal_equation()`, lin_reg.cpp:676-713. -/
def normal_equation (s : Glm) : M ℝ Glm :=
  if s.initialized then do
    let t ← Hd.transposen s.input_set
    let x_means ← rowMeans t
    let a ← Hd.multn t s.input_set
    let ai ← Hd.inverse a
    let c ← Hd.mult_vec t s.output_set
    let temp ← Hd.mult_vec ai c
    let _ ← Hd.element_get temp 0
    let t2 ← Hd.transposen s.input_set
    let b ← Hd.multn t2 s.input_set
    let b ← ridged s b
    let bi ← Hd.inverse b
    let t3 ← Hd.transposen s.input_set
    let c ← Hd.mult_vec t3 s.output_set
    let w ← Hd.mult_vec bi c
    let s := { s with weights := w }
    let μ ← Stat.meanv s.output_set.vec
    let d ← Hd.dot s.weights x_means
    let s := { s with bias := μ - d }
    forward_pass fns s
  else pure s

/-- `score()`, lin_reg.cpp:715-721. -/
def score (s : Glm) : M ℝ ℝ :=
  if s.initialized then Utilities.performance_vec s.y_hat.vec s.output_set.vec else pure 0

end LinReg

/-! ## `MLPPLogReg` -/

namespace LogReg
open Glm

/-- Sigmoid and logistic loss: log_reg.cpp:336-358. -/
def fns : Fns := ⟨Activation.sigmoid_normr, Activation.sigmoid_normv, pure, Cost.log_lossv, false⟩

/-- `model_set_test(X)`, log_reg.cpp:88-92. -/
def model_set_test (s : Glm) (X : Ref) : M ℝ Ref := if s.initialized then evaluatem fns s X else pure none

/-- `model_test(x)`, log_reg.cpp:94-98. -/
def model_test (s : Glm) (x : Ref) : M ℝ ℝ := if s.initialized then evaluatev fns s x else pure 0

/-- `gradient_descent(learning_rate, max_epoch, ui)`, log_reg.cpp:100-135. -/
def gradient_descent (s : Glm) (learning_rate : ℝ) (max_epoch : Int) : M ℝ Glm :=
  if s.initialized then Glm.gradient_descent fns s learning_rate max_epoch else pure s

/-- `mle(learning_rate, max_epoch, ui)`, log_reg.cpp:137-172. -/
def mle (s : Glm) (learning_rate : ℝ) (max_epoch : Int) : M ℝ Glm :=
  if s.initialized then Glm.mle fns s learning_rate max_epoch else pure s

/-- `sgd(learning_rate, max_epoch, ui)`, log_reg.cpp:174-233. -/
def sgd (s : Glm) (pick : Nat → Nat) (learning_rate : ℝ) (max_epoch : Int) : M ℝ Glm :=
  if s.initialized then Glm.sgd fns (fun _ _ => 1) (fun y_hat _ => y_hat) subStep s s.n pick learning_rate max_epoch else pure s

/-- `mbgd(learning_rate, max_epoch, mini_batch_size, UI)`, log_reg.cpp:235-278. -/
def mbgd (s : Glm) (learning_rate : ℝ) (max_epoch mini_batch_size : Int) : M ℝ Glm :=
  if s.initialized then Glm.mbgd fns s learning_rate max_epoch mini_batch_size else pure s

/-- `score()`, log_reg.cpp:280-285. -/
def score (s : Glm) : M ℝ ℝ :=
  if s.initialized then Utilities.performance_vec s.y_hat.vec s.output_set.vec else pure 0

end LogReg

/-! ## `MLPPTanhReg` -/

namespace TanhReg
open Glm

/-- Hyperbolic tangent and half squared error: tanh_reg.cpp:364-397. -/
def fns : Fns := ⟨Activation.tanh_normr, Activation.tanh_normv, Activation.tanh_derivv, Cost.msev, true⟩

/-- `set_output_set(val)`, tanh_reg.cpp:50-52: the parameter is a `Ref<MLPPMatrix>`, the field a `Ref<MLPPVector>`. -/
def set_output_set (s : Glm) (val : Ref) : Glm := { s with output_set := Ref.asV (Ref.asM val) }

/-- `get_output_set()`, tanh_reg.cpp:47-49: the field is converted to a `Ref<MLPPMatrix>`. -/
def get_output_set (s : Glm) : Ref := Ref.asM s.output_set

/-- `model_set_test(X)`, tanh_reg.cpp:153-157. -/
def model_set_test (s : Glm) (X : Ref) : M ℝ Ref := do
  if ← needs_init s then pure none else evaluatem fns s X

/-- `model_test(x)`, tanh_reg.cpp:159-163. -/
def model_test (s : Glm) (x : Ref) : M ℝ ℝ := do
  if ← needs_init s then pure 0 else evaluatev fns s x

/-- `train_gradient_descent(learning_rate, max_epoch, ui)`, tanh_reg.cpp:165-204. -/
def train_gradient_descent (s : Glm) (learning_rate : ℝ) (max_epoch : Int) : M ℝ Glm := do
  if ← needs_init s then pure s else do
    let size ← Hd.sizem s.input_set
    gradient_descent_z fns s learning_rate max_epoch size.y

/-- `train_sgd(learning_rate, max_epoch, ui)`, tanh_reg.cpp:206-269: `_weights->subn(…)` returns a new vector, which is dropped. -/
def train_sgd (s : Glm) (pick : Nat → Nat) (learning_rate : ℝ) (max_epoch : Int) : M ℝ Glm := do
  if ← needs_init s then pure s else do
    let size ← Hd.sizem s.input_set
    sgd fns (fun _ y_hat => 1 - y_hat * y_hat) (fun y_hat _ => y_hat) (fun s d => do
      let _ ← Hd.subn s.weights d
      regularize s) s size.y pick learning_rate max_epoch

/-- `train_mbgd(learning_rate, max_epoch, mini_batch_size, ui)`, tanh_reg.cpp:271-324: the bias uses `_z`, which belongs to the whole input
set, and the steps are divided by the size of the whole set. -/
def train_mbgd (s : Glm) (learning_rate : ℝ) (max_epoch mini_batch_size : Int) : M ℝ Glm := do
  if ← needs_init s then pure s else do
    let size ← Hd.sizem s.input_set
    let n := size.y
    let s ← overBatches s.input_set s.output_set n mini_batch_size max_epoch (pure s) fun _ X y s => do
      let y_hat ← evaluatem fns s X
      let z ← propagatem s X
      let _ ← cost fns s y_hat y
      let error ← Hd.subn y_hat y
      let c ← chain fns error z
      let d ← gradient X c (learning_rate / n)
      let s ← subStep s d
      let c ← chain fns error s.z
      let e ← Hd.sum_elements c
      let s := { s with bias := s.bias - learning_rate * e / n }
      forward_pass fns s
    forward_pass fns s

/-- `score()`, tanh_reg.cpp:326-333. -/
def score (s : Glm) : M ℝ ℝ := do
  if ← needs_init s then pure 0 else Utilities.performance_vec s.y_hat.vec s.output_set.vec

end TanhReg

/-! ## `MLPPProbitReg` -/

namespace ProbitReg
open Glm

/-- Cumulative distribution function of the normal distribution and half squared error: probit_reg.cpp:402-435. -/
def fns : Fns := ⟨Activation.gaussian_cdf_normr, Activation.gaussian_cdf_normv, Activation.gaussian_cdf_derivv, Cost.msev, true⟩

/-- `model_set_test(X)`, probit_reg.cpp:115-119. -/
def model_set_test (s : Glm) (X : Ref) : M ℝ Ref := do
  if ← needs_init s then pure none else evaluatem fns s X

/-- `model_test(x)`, probit_reg.cpp:121-125. -/
def model_test (s : Glm) (x : Ref) : M ℝ ℝ := do
  if ← needs_init s then pure 0 else evaluatev fns s x

/-- `train_gradient_descent(learning_rate, max_epoch, ui)`, probit_reg.cpp:127-163. -/
def train_gradient_descent (s : Glm) (learning_rate : ℝ) (max_epoch : Int) : M ℝ Glm := do
  if ← needs_init s then pure s else do
    let size ← Hd.sizem s.input_set
    gradient_descent_z fns s learning_rate max_epoch size.y

/-- `train_mle(learning_rate, max_epoch, ui)`, probit_reg.cpp:165-201. -/
def train_mle (s : Glm) (learning_rate : ℝ) (max_epoch : Int) : M ℝ Glm := do
  if ← needs_init s then pure s else do
    let size ← Hd.sizem s.input_set
    mle_z fns true s learning_rate max_epoch size.y

/-- `train_sgd(learning_rate, max_epoch, ui)`, probit_reg.cpp:203-267. `Math_PI` is π. -/
def train_sgd (s : Glm) (pick : Nat → Nat) (learning_rate : ℝ) (max_epoch : Int) : M ℝ Glm := do
  if ← needs_init s then pure s else do
    let size ← Hd.sizem s.input_set
    sgd fns (fun z _ => (1 / Real.sqrt (2 * Real.pi)) * Real.exp (-z * z / 2)) (fun y_hat _ => y_hat) subStep s size.y pick learning_rate
      max_epoch

/-- `train_mbgd(learning_rate, max_epoch, mini_batch_size, ui)`, probit_reg.cpp:269-324: `z` is computed from the *outputs* of the batch,
and `z_tmp` has one element. `y_hat = evaluatev(current_input)` converts a matrix handle to a vector handle, which is null, and its result
(a number) to a handle; it is not modelled beyond `_weights->dot(null)`, which returns 0. -/
def train_mbgd (s : Glm) (learning_rate : ℝ) (max_epoch mini_batch_size : Int) : M ℝ Glm := do
  if ← needs_init s then pure s else do
    let size ← Hd.sizem s.input_set
    let z_tmp ← newVec
    resizeTo z_tmp ⟨1, 1, 1⟩
    let s ← overBatches s.input_set s.output_set size.y mini_batch_size max_epoch (pure s) fun _ X y s => do
      let y_hat ← evaluatem fns s X
      let z ← propagatev s y
      Hd.element_set (some z_tmp) 0 z
      let _ ← cost fns s y_hat y
      let error ← Hd.subn y_hat y
      let c ← chain fns error (some z_tmp)
      let d ← gradient X c (learning_rate / ((size.y : Int).tdiv mini_batch_size : Int))
      let s ← subStep s d
      let c ← chain fns error (some z_tmp)
      let e ← Hd.sum_elements c
      pure { s with bias := s.bias - learning_rate * e / ((size.y : Int).tdiv mini_batch_size : Int) }
    forward_pass fns s

/-- `score()`, probit_reg.cpp:326-332. -/
def score (s : Glm) : M ℝ ℝ := do
  if ← needs_init s then pure 0 else Utilities.performance_vec s.y_hat.vec s.output_set.vec

end ProbitReg

/-! ## `MLPPCLogLogReg` -/

namespace CLogLogReg
open Glm

/-- Complementary log-log and half squared error: c_log_log_reg.cpp:265-298. -/
def fns : Fns := ⟨Activation.cloglog_normr, Activation.cloglog_normv, Activation.cloglog_derivv, Cost.msev, true⟩

/-- `model_set_test(X)`, c_log_log_reg.cpp:39-41. -/
def model_set_test (s : Glm) (X : Ref) : M ℝ Ref := evaluatem fns s X

/-- `model_test(x)`, c_log_log_reg.cpp:43-45. -/
def model_test (s : Glm) (x : Ref) : M ℝ ℝ := evaluatev fns s x

/-- `gradient_descent(learning_rate, max_epoch, ui)`, c_log_log_reg.cpp:47-82. -/
def gradient_descent (s : Glm) (learning_rate : ℝ) (max_epoch : Int) : M ℝ Glm :=
  gradient_descent_z fns s learning_rate max_epoch s.n

/-- `mle(learning_rate, max_epoch, ui)`, c_log_log_reg.cpp:84-117. -/
def mle (s : Glm) (learning_rate : ℝ) (max_epoch : Int) : M ℝ Glm :=
  mle_z fns false s learning_rate max_epoch s.n

/-- `sgd(learning_rate, max_epoch, p_)`, c_log_log_reg.cpp:119-182. -/
def sgd (s : Glm) (pick : Nat → Nat) (learning_rate : ℝ) (max_epoch : Int) : M ℝ Glm :=
  if s.n = 0 then ub else do
    let s ← forward_pass fns s
    Glm.sgd fns (fun z _ => Real.exp (z - Real.exp z)) (fun y_hat _ => y_hat) subStep s s.n pick learning_rate max_epoch

/-- `mbgd(learning_rate, max_epoch, mini_batch_size, p_)`, c_log_log_reg.cpp:184-231: the steps are divided by the size of the whole
set. -/
def mbgd (s : Glm) (learning_rate : ℝ) (max_epoch mini_batch_size : Int) : M ℝ Glm := do
  let s ← overBatches s.input_set s.output_set s.n mini_batch_size max_epoch (pure s) fun _ X y s => do
    let y_hat ← evaluatem fns s X
    let z ← propagatem s X
    let _ ← cost fns s y_hat y
    let error ← Hd.subn y_hat y
    let c ← chain fns error z
    let d ← gradient X c (learning_rate / s.n)
    let s ← subStep s d
    let c ← chain fns error z
    let e ← Hd.sum_elements c
    let s := { s with bias := s.bias - learning_rate * e / s.n }
    forward_pass fns s
  forward_pass fns s

/-- `score()`, c_log_log_reg.cpp:233-237. -/
def score (s : Glm) : M ℝ ℝ := Utilities.performance_vec s.y_hat.vec s.output_set.vec

end CLogLogReg
end
end Verif
