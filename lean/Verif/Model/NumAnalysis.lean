import Verif.Real
import Verif.Model.Matrix
import Verif.Model.Tensor
import Verif.Model.Softmax

/-!
# `MLPPNumericalAnalysis` (core/numerical_analysis.cpp)

A callback `real_t (*function)(real_t)` is a function `ℝ → ℝ`; a callback on vectors is a function of the list of elements of the
vector it is given: it has no side effects, always returns, and gives the same answer for the same elements. Arithmetic is
exact; with the `float` arithmetic of the default build `x + 1e-10` is `x` for every `|x| > 0.002`, which the model does not see.
-/

namespace Verif
namespace NumAnalysis
open Activation (toInt)

noncomputable section

/-- `num_diffr(function, x)`, numerical_analysis.cpp:39-42. -/
def num_diffr (function : ℝ → ℝ) (x : ℝ) : ℝ :=
  let eps := 1e-10
  (function (x + eps) - function x) / eps

/-- `num_diff_2r(function, x)`, numerical_analysis.cpp:44-47. -/
def num_diff_2r (function : ℝ → ℝ) (x : ℝ) : ℝ :=
  let eps := 1e-5
  (function (x + 2 * eps) - 2 * function (x + eps) + function x) / (eps * eps)

/-- `num_diff_3r(function, x)`, numerical_analysis.cpp:49-54. -/
def num_diff_3r (function : ℝ → ℝ) (x : ℝ) : ℝ :=
  let eps := 1e-5
  let t1 := function (x + 3 * eps) - 2 * function (x + 2 * eps) + function (x + eps)
  let t2 := function (x + 2 * eps) - 2 * function (x + eps) + function x
  (t1 - t2) / (eps * eps * eps)

/-- `constant_approximationr(function, c)`, numerical_analysis.cpp:56-58. -/
def constant_approximationr (function : ℝ → ℝ) (c : ℝ) : ℝ := function c

/-- `linear_approximationr(function, c, x)`, numerical_analysis.cpp:60-62. -/
def linear_approximationr (function : ℝ → ℝ) (c x : ℝ) : ℝ :=
  constant_approximationr function c + num_diffr function c * (x - c)

/-- `quadratic_approximationr(function, c, x)`, numerical_analysis.cpp:64-66. -/
def quadratic_approximationr (function : ℝ → ℝ) (c x : ℝ) : ℝ :=
  linear_approximationr function c x + 0.5 * num_diff_2r function c * (x - c) * (x - c)

/-- `cubic_approximationr(function, c, x)`, numerical_analysis.cpp:68-70. `(1 / 6)` is a division of integers. -/
def cubic_approximationr (function : ℝ → ℝ) (c x : ℝ) : ℝ :=
  quadratic_approximationr function c x + (((1 : Int) / 6 : Int) : ℝ) * num_diff_3r function c * (x - c) * (x - c) * (x - c)

/-! ## Root finding -/

/-- `newton_raphson_method(function, x_0, epoch_num)`, numerical_analysis.cpp:137-143. The test `i < epoch_num` compares an `int`
with a `real_t`: the body runs `⌈epoch_num⌉` times. -/
def newton_raphson_method (function : ℝ → ℝ) (x_0 epoch_num : ℝ) : ℝ :=
  (fun x => x - function x / num_diffr function x)^[⌈epoch_num⌉₊] x_0

/-- `halley_method(function, x_0, epoch_num)`, numerical_analysis.cpp:145-151. -/
def halley_method (function : ℝ → ℝ) (x_0 epoch_num : ℝ) : ℝ :=
  (fun x => x - (2 * function x * num_diffr function x) /
    (2 * num_diffr function x * num_diffr function x - function x * num_diff_2r function x))^[⌈epoch_num⌉₊] x_0

/-- `inv_quadratic_interpolation(function, x_0, epoch_num)`, numerical_analysis.cpp:153-168. Division by zero (equal function values)
is a NaN or an infinity in the code and zero in the model. -/
def inv_quadratic_interpolation (function : ℝ → ℝ) (x_0 : Ref) (epoch_num : Int) : M ℝ ℝ := do
  let x0 ← derefV x_0
  let ct ← Vec.duplicate_fast x0
  let current_three ← derefV ct
  foldN epoch_num.toNat 0 fun _ _ => do
    let a ← Vec.index_get current_three 0
    let b ← Vec.index_get current_three 1
    let c ← Vec.index_get current_three 2
    let t1 := ((function b * function c) / ((function a - function b) * (function a - function c))) * a
    let t2 := ((function a * function c) / ((function b - function a) * (function b - function c))) * b
    let t3 := ((function a * function b) / ((function c - function a) * (function c - function b))) * c
    let x := t1 + t2 + t3
    Vec.remove current_three 0
    Vec.push_back current_three x
    pure x

/-! ## Differential equations -/

/-- `eulerian_methodr(derivative, q_0, q_1, p, h)`, numerical_analysis.cpp:170-179. -/
def eulerian_methodr (derivative : ℝ → ℝ) (q_0 q_1 p h : ℝ) : M ℝ ℝ := do
  let max_epoch ← toInt ((p - q_0) / h)
  let s ← foldN max_epoch.toNat (q_0, q_1) fun _ s => pure (s.1 + h, s.2 + h * derivative s.1)
  pure s.2

/-- A call of a callback on a vector. -/
def callV (function : List ℝ → ℝ) (x : Nat) : M ℝ ℝ := do
  let xs ← Vec.get_data x
  pure (function xs)

/-- `eulerian_methodv(derivative, q_0, q_1, p, h)`, numerical_analysis.cpp:181-197. -/
def eulerian_methodv (derivative : List ℝ → ℝ) (q_0 q_1 p h : ℝ) : M ℝ ℝ := do
  let max_epoch ← toInt ((p - q_0) / h)
  let v ← newVec
  resizeTo v ⟨2, 1, 1⟩
  let s ← foldN max_epoch.toNat (q_0, q_1) fun _ s => do
    Vec.element_set v.id 0 s.1
    Vec.element_set v.id 1 s.2
    let d ← callV derivative v.id
    pure (s.1 + h, s.2 + h * d)
  pure s.2

/-- `growth_method(C, k, t)`, numerical_analysis.cpp:199-211. -/
def growth_method (C k t : ℝ) : ℝ := C * MathFns.exp (k * t)

/-! ## Functions of several variables -/

/-- `x->element_get_ref(axis) += eps`, with mlpp_vector.h:122-125: a bad index aborts. -/
def bump (x : Nat) (eps : ℝ) (axis : Int) : M ℝ Unit := do
  let n ← Vec.size x
  if idxOk axis n then do
    let v ← load (.v x) axis.toNat
    store (.v x) axis.toNat (v + eps)
  else crash

/-- The increments of a copy along the axes of a list, one after the other. -/
def bumps (x : Nat) (eps : ℝ) : List Int → M ℝ Unit
  | [] => pure ()
  | a :: as => do
    bump x eps a
    bumps x eps as

/-- A copy of `x` with some elements increased by `eps`: the blocks `x->duplicate_fast(); x_..->element_get_ref(..) += eps; ..` of
numerical_analysis.cpp:77-78, 87-95 and 106-129. -/
def perturbed (x : Nat) (eps : ℝ) (axes : List Int) : M ℝ Nat := do
  let r ← Vec.duplicate_fast x
  let d ← derefV r
  bumps d eps axes
  pure d

/-- `num_diffv(function, x, axis)`, numerical_analysis.cpp:72-81. -/
def num_diffv (function : List ℝ → ℝ) (x : Ref) (axis : Int) : M ℝ ℝ := do
  let eps := 1e-10
  let x ← derefV x
  let x_eps ← perturbed x eps [axis]
  let a ← callV function x_eps
  let b ← callV function x
  pure ((a - b) / eps)

/-- `num_diff_2v(function, x, axis1, axis2)`, numerical_analysis.cpp:83-98. -/
def num_diff_2v (function : List ℝ → ℝ) (x : Ref) (axis1 axis2 : Int) : M ℝ ℝ := do
  let eps := 1e-5
  let x ← derefV x
  let x_pp ← perturbed x eps [axis1, axis2]
  let x_np ← perturbed x eps [axis2]
  let x_pn ← perturbed x eps [axis1]
  let pp ← callV function x_pp
  let np ← callV function x_np
  let pn ← callV function x_pn
  let nn ← callV function x
  pure ((pp - np - pn + nn) / (eps * eps))

/-- `num_diff_3v(function, x, axis1, axis2, axis3)`, numerical_analysis.cpp:100-135. -/
def num_diff_3v (function : List ℝ → ℝ) (x : Ref) (axis1 axis2 axis3 : Int) : M ℝ ℝ := do
  let eps := 1e-5
  let x ← derefV x
  let x_ppp ← perturbed x eps [axis1, axis2, axis3]
  let x_npp ← perturbed x eps [axis2, axis3]
  let x_pnp ← perturbed x eps [axis1, axis3]
  let x_nnp ← perturbed x eps [axis3]
  let x_ppn ← perturbed x eps [axis1, axis2]
  let x_npn ← perturbed x eps [axis2]
  let x_pnn ← perturbed x eps [axis1]
  let ppp ← callV function x_ppp
  let npp ← callV function x_npp
  let pnp ← callV function x_pnp
  let nnp ← callV function x_nnp
  let thirdAxis := ppp - npp - pnp + nnp
  let ppn ← callV function x_ppn
  let npn ← callV function x_npn
  let pnn ← callV function x_pnn
  let nnn ← callV function x
  let noThirdAxis := ppn - npn - pnn + nnn
  pure ((thirdAxis - noThirdAxis) / (eps * eps * eps))

/-- `jacobian(function, x)`, numerical_analysis.cpp:213-225. -/
def jacobian (function : List ℝ → ℝ) (x : Ref) : M ℝ Ref := do
  let jacobian ← newVec
  let xv ← derefV x
  let n ← Vec.size xv
  resizeTo jacobian ⟨n, 1, 1⟩
  let jacobian_size ← Vec.size jacobian.id
  forN jacobian_size fun i => do
    let d ← num_diffv function x i
    Vec.element_set jacobian.id i d
  pure (some jacobian)

/-- `hessian(function, x)`, numerical_analysis.cpp:227-241. -/
def hessian (function : List ℝ → ℝ) (x : Ref) : M ℝ Ref := do
  let hessian ← newMat
  let xv ← derefV x
  let n ← Vec.size xv
  resizeTo hessian ⟨n, n, 1⟩
  let hessian_size ← getSize hessian
  forN hessian_size.y fun i =>
    forN hessian_size.x fun j => do
      let d ← num_diff_2v function x i j
      Mat.element_set hessian.id i j d
  pure (some hessian)

/-- `third_order_tensor(function, x)`, numerical_analysis.cpp:243-259. -/
def third_order_tensor (function : List ℝ → ℝ) (x : Ref) : M ℝ Ref := do
  let tensor ← newTen
  let xv ← derefV x
  let n ← Vec.size xv
  resizeTo tensor ⟨n, n, n⟩
  let tensor_size ← getSize tensor
  forN tensor_size.z fun i =>
    forN tensor_size.y fun j =>
      forN tensor_size.x fun k => do
        let d ← num_diff_3v function x i j k
        Ten.element_set tensor.id i j k d
  pure (some tensor)

/-- `third_order_tensorvt(function, x)`, numerical_analysis.cpp:261-286: first all matrices are created, then they are filled. -/
def third_order_tensorvt (function : List ℝ → ℝ) (x : Ref) : M ℝ (List Ref) := do
  let xv ← derefV x
  let x_size ← Vec.size xv
  let tensor ← foldN x_size [] fun _ acc => do
    let m ← newMat
    resizeTo m ⟨x_size, x_size, 1⟩
    pure (acc ++ [some m])
  forN tensor.length fun i =>
    match tensor[i]? with
    | none => ub
    | some r => do
      let m ← derefM r
      forN x_size fun j =>
        forN x_size fun k => do
          let d ← num_diff_3v function x i j k
          Mat.element_set m j k d
  pure tensor

/-- `constant_approximationv(function, c)`, numerical_analysis.cpp:288-290. -/
def constant_approximationv (function : List ℝ → ℝ) (c : Ref) : M ℝ ℝ := do
  let c ← derefV c
  callV function c

/-- `Ref<MLPPMatrix> m; m.instance(); m->row_add_mlpp_vector(v)`: the vector as a matrix of one row. -/
def rowMat (v : Ref) : M ℝ Nat := do
  let m ← newMat
  let v ← derefV v
  Mat.row_add_mlpp_vector m.id (some v)
  pure m.id

/-- `linear_approximationv(function, c, x)`, numerical_analysis.cpp:292-308. -/
def linear_approximationv (function : List ℝ → ℝ) (c x : Ref) : M ℝ ℝ := do
  let j ← jacobian function c
  let mj ← rowMat j
  let xv ← derefV x
  let cv ← derefV c
  let xsc ← Vec.subn xv (some cv)
  let mxsc ← rowMat xsc
  let t ← Mat.transposen mj
  let tv ← derefM t
  let m ← Mat.multn tv (some mxsc)
  let mv ← derefM m
  let k ← constant_approximationv function c
  let e ← Mat.element_get mv 0 0
  pure (k + e)

/-- The expression `a->multn(b->multn(a->transposen()))->element_get(0, 0)` of numerical_analysis.cpp:320-322 and 341. -/
def quadForm (a b : Nat) : M ℝ ℝ := do
  let t ← Mat.transposen a
  let tv ← derefM t
  let p ← Mat.multn b (some tv)
  let pv ← derefM p
  let r ← Mat.multn a (some pv)
  let rv ← derefM r
  Mat.element_get rv 0 0

/-- `quadratic_approximationv(function, c, x)`, numerical_analysis.cpp:310-323. -/
def quadratic_approximationv (function : List ℝ → ℝ) (c x : Ref) : M ℝ ℝ := do
  let h ← hessian function c
  let xv ← derefV x
  let cv ← derefV c
  let xsc ← Vec.subn xv (some cv)
  let mxsc ← rowMat xsc
  let hv ← derefM h
  let r ← quadForm mxsc hv
  let l ← linear_approximationv function c x
  pure (l + 0.5 * r)

/-- `cubic_approximationv(function, c, x)`, numerical_analysis.cpp:325-345. `(1 / 6)` is a division of integers. -/
def cubic_approximationv (function : List ℝ → ℝ) (c x : Ref) : M ℝ ℝ := do
  let xv ← derefV x
  let cv ← derefV c
  let xsc ← Vec.subn xv (some cv)
  let mxsc ← rowMat xsc
  let t ← third_order_tensor function c
  let tv ← derefT t
  let xscv ← derefV xsc
  let result_mat ← Ten.tensor_vec_mult tv (some xscv)
  let rm ← derefM result_mat
  let result_scalar ← quadForm mxsc rm
  let q ← quadratic_approximationv function c x
  pure (q + (((1 : Int) / 6 : Int) : ℝ) * result_scalar)

/-- `laplacian(function, x)`, numerical_analysis.cpp:347-358. -/
def laplacian (function : List ℝ → ℝ) (x : Ref) : M ℝ ℝ := do
  let hessian_matrix ← hessian function x
  let hm ← derefM hessian_matrix
  let hessian_matrix_size ← Mat.size hm
  foldN hessian_matrix_size.y 0 fun i laplacian => do
    let d ← Mat.element_get hm i i
    pure (laplacian + d)

/-- `second_partial_derivative_test(function, x)`, numerical_analysis.cpp:360-392. The branch for other than two variables
(lines 381-391: eigenvalues of the Hessian) is the argument `other`; for the source it is `eigenBranch` (Model/SecondTest.lean). -/
def second_partial_derivative_test (other : Nat → M ℝ String) (function : List ℝ → ℝ) (x : Ref) : M ℝ String := do
  let hessian_matrix ← hessian function x
  let hm ← derefM hessian_matrix
  let hessian_matrix_size ← Mat.size hm
  if hessian_matrix_size.y = 2 then do
    let det ← Mat.det hm
    let secondDerivative ← num_diff_2v function x 0 0
    if secondDerivative > 0 ∧ det > 0 then pure "min"
    else if secondDerivative < 0 ∧ det > 0 then pure "max"
    else if det < 0 then pure "saddle"
    else pure "test was inconclusive"
  else other hm

end
end NumAnalysis
end Verif
