import Verif.Model.Activation
import Verif.Model.LinAlgMatrix

/-!
# `MLPPActivation`: softmax and the dispatch by enum value (core/activation.cpp)
-/

namespace Verif.Activation
open LinAlg
noncomputable section

/-! ## Softmax -/

/-- `softmax_normv(z)`, activation.cpp:912-936; `softmax_derivv(z)`, activation.cpp:962-986, has the same body. -/
def softmax_normv (z : Ref) : M ℝ Ref := do
  let z_size ← vsize z
  let a ← newVec
  resizeTo a ⟨z_size, 1, 1⟩
  let r ← expnv z
  let exp_z ← deref r
  let sum ← foldN z_size 0 fun i sum => do
    let x ← load exp_z i
    pure (sum + x)
  forN z_size fun i => do
    let x ← load exp_z i
    store a i (x / sum)
  pure (some a)

/-- `softmax_derivv(z)`, activation.cpp:962-986. -/
def softmax_derivv (z : Ref) : M ℝ Ref := do
  let z_size ← vsize z
  let a ← newVec
  resizeTo a ⟨z_size, 1, 1⟩
  let r ← expnv z
  let exp_z ← deref r
  let sum ← foldN z_size 0 fun i sum => do
    let x ← load exp_z i
    pure (sum + x)
  forN z_size fun i => do
    let x ← load exp_z i
    store a i (x / sum)
  pure (some a)

/-- The loop over the rows of `z` in activation.cpp:948-954, 1045-1051, 1090-1096: `f` of every row goes into `a`. -/
def rowLoop (f : Ref → M ℝ Ref) (z a row_tmp rows : Nat) : M ℝ Unit :=
  forN rows fun i => do
    Mat.row_get_into_mlpp_vector z (i : Int) (some row_tmp)
    let r ← f (some (.v row_tmp))
    Mat.row_set_mlpp_vector a (i : Int) r.vec?

/-- `softmax_normm(z)`, activation.cpp:937-957. -/
def softmax_normm (z : Ref) : M ℝ Ref := do
  let z_size ← msize z
  let a ← newMat
  resizeTo a z_size
  let row_tmp ← newVec
  resizeTo row_tmp ⟨z_size.x, 1, 1⟩
  let zi ← derefM z
  rowLoop softmax_normv zi a.id row_tmp.id z_size.y
  pure (some a)

/-- `softmax_derivm(z)`, activation.cpp:987-1007: the loop body calls `softmax_derivm(z)` itself with the same argument, so
with at least one row the recursion never ends. `fuel` bounds the depth of the recursion; running out of it is modelled as
`ub` (the stack overflows). The result of that call, converted to a vector handle, is null, which `row_set_mlpp_vector`
rejects. -/
def softmax_derivm (fuel : Nat) (z : Ref) : M ℝ Ref :=
  match fuel with
  | 0 => ub
  | fuel + 1 => do
    let z_size ← msize z
    let a ← newMat
    resizeTo a z_size
    let row_tmp ← newVec
    resizeTo row_tmp ⟨z_size.x, 1, 1⟩
    let zi ← derefM z
    forN z_size.y fun i => do
      Mat.row_get_into_mlpp_vector zi (i : Int) (some row_tmp.id)
      let _ ← softmax_derivm fuel z
      Mat.row_set_mlpp_vector a.id (i : Int) none
    pure (some a)

/-- Conversion of a `real_t` to `int`: truncation, undefined outside the range of `int`. -/
def toInt (x : ℝ) : M ℝ Int :=
  if -2147483649 < x ∧ x < 2147483648 then pure (if 0 ≤ x then ⌊x⌋ else ⌈x⌉) else ub

/-- The maximum of the truncated elements, the loop of activation.cpp:1022-1028 and 1067-1073. The initial value `-Math_INF`
is `none`. -/
def truncMax (z n : Nat) : M ℝ (Option ℝ) :=
  foldN n none fun i c => do
    let x ← load (.v z) i
    let zpi ← toInt x
    match c with
    | none => pure (some (zpi : ℝ))
    | some c => if c < (zpi : ℝ) then pure (some (zpi : ℝ)) else pure (some c)

/-- `adj_softmax_normv(z)`, activation.cpp:1015-1035. For an empty vector `c` is infinite and no element is shifted; the
model then uses `0`. -/
def adj_softmax_normv (z : Ref) : M ℝ Ref := do
  let size ← vsize z
  let zi ← derefV z
  let c ← truncMax zi size
  let n ← scalar_addnv (-(c.getD 0)) z
  softmax_normv n

/-- `adj_softmax_derivv(z)`, activation.cpp:1060-1080. -/
def adj_softmax_derivv (z : Ref) : M ℝ Ref := do
  let size ← vsize z
  let zi ← derefV z
  let c ← truncMax zi size
  let n ← scalar_addnv (-(c.getD 0)) z
  adj_softmax_normv n

/-- Row-by-row functions on a copy of `z`, shape of activation.cpp:1036-1054. -/
def rowsOfCopy (f : Ref → M ℝ Ref) (z : Ref) : M ℝ Ref := do
  let zi ← derefM z
  let r ← Mat.duplicate_fast zi
  let n ← derefM r
  let size ← Mat.size zi
  let row_rmp ← newVec
  resizeTo row_rmp ⟨size.x, 1, 1⟩
  rowLoop f zi n row_rmp.id size.y
  pure r

/-- `adj_softmax_normm(z)`, activation.cpp:1036-1054. -/
def adj_softmax_normm (z : Ref) : M ℝ Ref := rowsOfCopy adj_softmax_normv z

/-- `adj_softmax_derivm(z)`, activation.cpp:1081-1099. -/
def adj_softmax_derivm (z : Ref) : M ℝ Ref := rowsOfCopy adj_softmax_derivv z

/-- `softmax_deriv_normv(z)`, activation.cpp:1103-1126; `softmax_deriv_derivv(z)`, activation.cpp:1171-1194, has the same
body. -/
def softmax_deriv_normv (z : Ref) : M ℝ Ref := do
  let r ← softmax_normv z
  let z_size ← vsize z
  let a ← derefV r
  let a_size ← Vec.size a
  let deriv ← newMat
  resizeTo deriv ⟨a_size, a_size, 1⟩
  forN z_size fun i => forN z_size fun j =>
    if i = j then do
      let x ← load (.v a) i
      Mat.element_set deriv.id (i : Int) (j : Int) (x * (1 - x))
    else do
      let x ← load (.v a) i
      let y ← load (.v a) j
      Mat.element_set deriv.id (i : Int) (j : Int) (-x * y)
  pure (some deriv)

/-- `softmax_deriv_derivv(z)`, activation.cpp:1171-1194. -/
def softmax_deriv_derivv (z : Ref) : M ℝ Ref := do
  let r ← softmax_normv z
  let z_size ← vsize z
  let a ← derefV r
  let a_size ← Vec.size a
  let deriv ← newMat
  resizeTo deriv ⟨a_size, a_size, 1⟩
  forN z_size fun i => forN z_size fun j =>
    if i = j then do
      let x ← load (.v a) i
      Mat.element_set deriv.id (i : Int) (j : Int) (x * (1 - x))
    else do
      let x ← load (.v a) i
      let y ← load (.v a) j
      Mat.element_set deriv.id (i : Int) (j : Int) (-x * y)
  pure (some deriv)

/-! ## Dispatch

The functions that return a function pointer are modelled by the function they point to. The enumeration has no other
values, so the `default` branches are not modelled.
-/

/-- `ActivationFunction`, activation.h:57-86. -/
inductive Fn where
  | linear
  | sigmoid
  | swish
  | mish
  | sinc
  | softmax
  | softplus
  | softsign
  | adj_softmax
  | cloglog
  | logit
  | gaussian_cdf
  | relu
  | gelu
  | sign
  | unit_step
  | sinh
  | cosh
  | tanh
  | csch
  | sech
  | coth
  | arsinh
  | arcosh
  | artanh
  | arcsch
  | arsech
  | arcoth

/-- `get_activation_function_ptr_normal_real`, activation.cpp:60-121, and `run_activation_norm_real`, 456-517. -/
def normReal : Fn → ℝ → ℝ
  | .linear => linear_normr
  | .sigmoid => sigmoid_normr
  | .swish => swish_normr
  | .mish => mish_normr
  | .sinc => sinc_normr
  | .softmax => softmax_normr
  | .softplus => softplus_normr
  | .softsign => softsign_normr
  | .adj_softmax => adj_softmax_normr
  | .cloglog => cloglog_normr
  | .logit => logit_normr
  | .gaussian_cdf => gaussian_cdf_normr
  | .relu => relu_normr
  | .gelu => gelu_normr
  | .sign => sign_normr
  | .unit_step => unit_step_normr
  | .sinh => sinh_normr
  | .cosh => cosh_normr
  | .tanh => tanh_normr
  | .csch => csch_normr
  | .sech => sech_normr
  | .coth => coth_normr
  | .arsinh => arsinh_normr
  | .arcosh => arcosh_normr
  | .artanh => artanh_normr
  | .arcsch => arcsch_normr
  | .arsech => arsech_normr
  | .arcoth => arcoth_normr

/-- `get_activation_function_ptr_normal_vector`, activation.cpp:122-183, and `run_activation_norm_vector`, 518-579. -/
def normVector : Fn → Ref → M ℝ Ref
  | .linear => linear_normv
  | .sigmoid => sigmoid_normv
  | .swish => swish_normv
  | .mish => mish_normv
  | .sinc => sinc_normv
  | .softmax => softmax_normv
  | .softplus => softplus_normv
  | .softsign => softsign_normv
  | .adj_softmax => adj_softmax_normv
  | .cloglog => cloglog_normv
  | .logit => logit_normv
  | .gaussian_cdf => gaussian_cdf_normv
  | .relu => relu_normv
  | .gelu => gelu_normv
  | .sign => sign_normv
  | .unit_step => unit_step_normv
  | .sinh => sinh_normv
  | .cosh => cosh_normv
  | .tanh => tanh_normv
  | .csch => csch_normv
  | .sech => sech_normv
  | .coth => coth_normv
  | .arsinh => arsinh_normv
  | .arcosh => arcosh_normv
  | .artanh => artanh_normv
  | .arcsch => arcsch_normv
  | .arsech => arsech_normv
  | .arcoth => arcoth_normv

/-- `get_activation_function_ptr_normal_matrix`, activation.cpp:184-245, and `run_activation_norm_matrix`, 580-641. -/
def normMatrix : Fn → Ref → M ℝ Ref
  | .linear => linear_normm
  | .sigmoid => sigmoid_normm
  | .swish => swish_normm
  | .mish => mish_normm
  | .sinc => sinc_normm
  | .softmax => softmax_normm
  | .softplus => softplus_normm
  | .softsign => softsign_normm
  | .adj_softmax => adj_softmax_normm
  | .cloglog => cloglog_normm
  | .logit => logit_normm
  | .gaussian_cdf => gaussian_cdf_normm
  | .relu => relu_normm
  | .gelu => gelu_normm
  | .sign => sign_normm
  | .unit_step => unit_step_normm
  | .sinh => sinh_normm
  | .cosh => cosh_normm
  | .tanh => tanh_normm
  | .csch => csch_normm
  | .sech => sech_normm
  | .coth => coth_normm
  | .arsinh => arsinh_normm
  | .arcosh => arcosh_normm
  | .artanh => artanh_normm
  | .arcsch => arcsch_normm
  | .arsech => arsech_normm
  | .arcoth => arcoth_normm

/-- `get_activation_function_ptr_deriv_real`, activation.cpp:247-308, and `run_activation_deriv_real`, 643-704. Both
name the functions with suffix `_normr`. -/
def derivReal : Fn → ℝ → ℝ
  | .linear => linear_normr
  | .sigmoid => sigmoid_normr
  | .swish => swish_normr
  | .mish => mish_normr
  | .sinc => sinc_normr
  | .softmax => softmax_normr
  | .softplus => softplus_normr
  | .softsign => softsign_normr
  | .adj_softmax => adj_softmax_normr
  | .cloglog => cloglog_normr
  | .logit => logit_normr
  | .gaussian_cdf => gaussian_cdf_normr
  | .relu => relu_normr
  | .gelu => gelu_normr
  | .sign => sign_normr
  | .unit_step => unit_step_normr
  | .sinh => sinh_normr
  | .cosh => cosh_normr
  | .tanh => tanh_normr
  | .csch => csch_normr
  | .sech => sech_normr
  | .coth => coth_normr
  | .arsinh => arsinh_normr
  | .arcosh => arcosh_normr
  | .artanh => artanh_normr
  | .arcsch => arcsch_normr
  | .arsech => arsech_normr
  | .arcoth => arcoth_normr

/-- `get_activation_function_ptr_deriv_vector`, activation.cpp:309-370, and `run_activation_deriv_vector`, 705-766. -/
def derivVector : Fn → Ref → M ℝ Ref
  | .linear => linear_derivv
  | .sigmoid => sigmoid_derivv
  | .swish => swish_derivv
  | .mish => mish_derivv
  | .sinc => sinc_derivv
  | .softmax => softmax_derivv
  | .softplus => softplus_derivv
  | .softsign => softsign_derivv
  | .adj_softmax => adj_softmax_derivv
  | .cloglog => cloglog_derivv
  | .logit => logit_derivv
  | .gaussian_cdf => gaussian_cdf_derivv
  | .relu => relu_derivv
  | .gelu => gelu_derivv
  | .sign => sign_derivv
  | .unit_step => unit_step_derivv
  | .sinh => sinh_derivv
  | .cosh => cosh_derivv
  | .tanh => tanh_derivv
  | .csch => csch_derivv
  | .sech => sech_derivv
  | .coth => coth_derivv
  | .arsinh => arsinh_derivv
  | .arcosh => arcosh_derivv
  | .artanh => artanh_derivv
  | .arcsch => arcsch_derivv
  | .arsech => arsech_derivv
  | .arcoth => arcoth_derivv

/-- `get_activation_function_ptr_deriv_matrix`, activation.cpp:371-432, and `run_activation_deriv_matrix`, 767-828. -/
def derivMatrix (fuel : Nat) : Fn → Ref → M ℝ Ref
  | .linear => linear_derivm
  | .sigmoid => sigmoid_derivm
  | .swish => swish_derivm
  | .mish => mish_derivm
  | .sinc => sinc_derivm
  | .softmax => softmax_derivm fuel
  | .softplus => softplus_derivm
  | .softsign => softsign_derivm
  | .adj_softmax => adj_softmax_derivm
  | .cloglog => cloglog_derivm
  | .logit => logit_derivm
  | .gaussian_cdf => gaussian_cdf_derivm
  | .relu => relu_derivm
  | .gelu => gelu_derivm
  | .sign => sign_derivm
  | .unit_step => unit_step_derivm
  | .sinh => sinh_derivm
  | .cosh => cosh_derivm
  | .tanh => tanh_derivm
  | .csch => csch_derivm
  | .sech => sech_derivm
  | .coth => coth_derivm
  | .arsinh => arsinh_derivm
  | .arcosh => arcosh_derivm
  | .artanh => artanh_derivm
  | .arcsch => arcsch_derivm
  | .arsech => arsech_derivm
  | .arcoth => arcoth_derivm

/-- The scalar function `*_derivr` of each family (activation.cpp:861-2429), which the dispatch for real numbers never reaches. -/
def ownDerivReal : Fn → ℝ → ℝ
  | .linear => linear_derivr
  | .sigmoid => sigmoid_derivr
  | .swish => swish_derivr
  | .mish => mish_derivr
  | .sinc => sinc_derivr
  | .softmax => softmax_derivr
  | .softplus => softplus_derivr
  | .softsign => softsign_derivr
  | .adj_softmax => adj_softmax_derivr
  | .cloglog => cloglog_derivr
  | .logit => logit_derivr
  | .gaussian_cdf => gaussian_cdf_derivr
  | .relu => relu_derivr
  | .gelu => gelu_derivr
  | .sign => sign_derivr
  | .unit_step => unit_step_derivr
  | .sinh => sinh_derivr
  | .cosh => cosh_derivr
  | .tanh => tanh_derivr
  | .csch => csch_derivr
  | .sech => sech_derivr
  | .coth => coth_derivr
  | .arsinh => arsinh_derivr
  | .arcosh => arcosh_derivr
  | .artanh => artanh_derivr
  | .arcsch => arcsch_derivr
  | .arsech => arsech_derivr
  | .arcoth => arcoth_derivr

/-- `run_activation_real(func, z, deriv)`, activation.cpp:434-440; also `get_activation_function_ptr_real`, 38-44. -/
def run_activation_real (f : Fn) (z : ℝ) (deriv : Bool) : ℝ := if deriv then normReal f z else derivReal f z

/-- `run_activation_vector(func, z, deriv)`, activation.cpp:441-447; also `get_activation_function_ptr_vector`, 45-51. -/
def run_activation_vector (f : Fn) (z : Ref) (deriv : Bool) : M ℝ Ref := if deriv then normVector f z else derivVector f z

/-- `run_activation_matrix(func, z, deriv)`, activation.cpp:448-454; also `get_activation_function_ptr_matrix`, 52-58. -/
def run_activation_matrix (fuel : Nat) (f : Fn) (z : Ref) (deriv : Bool) : M ℝ Ref :=
  if deriv then normMatrix f z else derivMatrix fuel f z

/-- `activationr(z, function)`, activation.cpp:830-846. -/
def activationr (z : Ref) (function : ℝ → ℝ) : M ℝ Ref := loopV function z

end
end Verif.Activation
