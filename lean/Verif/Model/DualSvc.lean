import Verif.Model.Glm
import Verif.Model.KMeans

/-!
# `MLPPDualSVC` (modules/dual_svc): the support vector classifier trained on the dual problem

Not modelled: printing (`ui`), `save` (its body is commented out), `kernel_functionv` (never called), the fields `_p` and `_c` (never used) and the
field `_kernel`, whose type has the single value `KERNEL_METHOD_LINEAR`. The constructor without data leaves `_bias`, `_C`, `_n`, `_k` uninitialised and
the handles null, and there is no way to set them.
-/

namespace Verif
noncomputable section

/-- The fields of `MLPPDualSVC`, dual_svc.h:93-108. -/
structure DualSvc where
  input_set : Ref
  output_set : Ref
  z : Ref
  y_hat : Ref
  bias : ℝ
  alpha : Ref
  K : Ref
  C : ℝ
  n : Nat
  k : Nat

namespace DualSvc
open Glm (epochs)

/-- `cost(alpha, X, y)`, dual_svc.cpp:222-226. -/
def cost (alpha X y : Ref) : M ℝ ℝ := Cost.dual_form_svm alpha X y

/-- One turn of the loop of `propagatev(x)`, dual_svc.cpp:241-244. -/
def termv (s : DualSvc) (row x : Ref) (j : Nat) (z : ℝ) : M ℝ ℝ := do
  let a ← Hd.element_get s.alpha j
  if a ≠ 0 then do
    Hd.row_get_into s.input_set (j : Int) row
    let a ← Hd.element_get s.alpha j
    let y ← Hd.element_get s.output_set j
    let d ← Hd.dot row x
    pure (z + a * y * d)
  else pure z

/-- `propagatev(x)`, dual_svc.cpp:233-248. -/
def propagatev (s : DualSvc) (x : Ref) : M ℝ ℝ := do
  let size ← Hd.sizem s.input_set
  let row ← newVec
  resizeTo row ⟨size.x, 1, 1⟩
  let n ← Hd.size s.alpha
  let z ← foldN n (0 : ℝ) fun j z => termv s (some row) x j z
  pure (z + s.bias)

/-- `evaluatev(x)`, dual_svc.cpp:228-231. -/
def evaluatev (s : DualSvc) (x : Ref) : M ℝ ℝ := do
  let z ← propagatev s x
  pure (Activation.sign_normr z)

/-- One turn of the inner loop of `propagatem(X)`, dual_svc.cpp:273-278. -/
def termm (s : DualSvc) (row X xrow : Ref) (i j : Nat) (sum : ℝ) : M ℝ ℝ := do
  let a ← Hd.element_get s.alpha j
  if a ≠ 0 then do
    Hd.row_get_into s.input_set (j : Int) row
    Hd.row_get_into X (i : Int) xrow
    let a ← Hd.element_get s.alpha j
    let y ← Hd.element_get s.output_set j
    let d ← Hd.dot row xrow
    pure (sum + a * y * d)
  else pure sum

/-- `propagatem(X)`, dual_svc.cpp:256-286. -/
def propagatem (s : DualSvc) (X : Ref) : M ℝ Ref := do
  let size ← Hd.sizem X
  let z ← newVec
  resizeTo z ⟨size.y, 1, 1⟩
  let isize ← Hd.sizem s.input_set
  let row ← newVec
  resizeTo row ⟨isize.x, 1, 1⟩
  let xrow ← newVec
  resizeTo xrow ⟨size.x, 1, 1⟩
  let n ← Hd.size s.alpha
  forN size.y fun i => do
    let sum ← foldN n (0 : ℝ) fun j sum => termm s (some row) X (some xrow) i j sum
    Hd.element_set (some z) i (sum + s.bias)
  pure (some z)

/-- `evaluatem(X)`, dual_svc.cpp:250-254. -/
def evaluatem (s : DualSvc) (X : Ref) : M ℝ Ref := do
  let z ← propagatem s X
  Activation.sign_normv z

/-- `forward_pass()`, dual_svc.cpp:288-293. -/
def forward_pass (s : DualSvc) : M ℝ DualSvc := do
  let z ← propagatem s s.input_set
  let y_hat ← Activation.sign_normv z
  pure { s with z := z, y_hat := y_hat }

/-- One turn of the loop of `alpha_projection()`, dual_svc.cpp:297-301. -/
def project (s : DualSvc) (i : Nat) : M ℝ Unit := do
  let a ← Hd.element_get s.alpha i
  if a > s.C then Hd.element_set s.alpha i s.C
  else if a < 0 then Hd.element_set s.alpha i 0
  else pure ()

/-- `alpha_projection()`, dual_svc.cpp:295-303. -/
def alpha_projection (s : DualSvc) : M ℝ Unit := do
  let n ← Hd.size s.alpha
  forN n fun i => project s i

/-- `model_set_test(X)`, dual_svc.cpp:39-41. -/
def model_set_test (s : DualSvc) (X : Ref) : M ℝ Ref := evaluatem s X

/-- `model_test(x)`, dual_svc.cpp:43-45. -/
def model_test (s : DualSvc) (x : Ref) : M ℝ ℝ := evaluatev s x

/-- One turn of the inner loop of the bias gradient, dual_svc.cpp:77-82. -/
def supportTerm (s : DualSvc) (ri rj : Ref) (i j : Nat) (sum : ℝ) : M ℝ ℝ := do
  let a ← Hd.element_get s.alpha j
  if a > 0 then do
    Hd.row_get_into s.input_set (i : Int) ri
    Hd.row_get_into s.input_set (j : Int) rj
    let a ← Hd.element_get s.alpha j
    let y ← Hd.element_get s.output_set j
    let d ← Hd.dot rj ri
    pure (sum + a * y * d)
  else pure sum

/-- The sum for sample `i`, dual_svc.cpp:74-84. -/
def supportSum (s : DualSvc) (ri rj : Ref) (n i : Nat) : M ℝ ℝ := do
  let a ← Hd.element_get s.alpha i
  if a < s.C ∧ a > 0 then foldN n (0 : ℝ) fun j sum => supportTerm s ri rj i j sum else pure 0

/-- The bias gradient, dual_svc.cpp:72-89: the loop over the samples ends after the first one (`break`). -/
def biasGradient (s : DualSvc) (ri rj : Ref) : M ℝ ℝ := do
  let n ← Hd.size s.alpha
  if n = 0 then pure 0 else do
    let sum ← supportSum s ri rj n 0
    let y ← Hd.element_get s.output_set 0
    pure ((1 - y * sum) / y)

/-- The body of the loop of `gradient_descent`, dual_svc.cpp:65-93. -/
def gdBody (learning_rate : ℝ) (ri rj : Ref) (s : DualSvc) : M ℝ DualSvc := do
  let _ ← cost s.alpha s.input_set s.output_set
  let g ← Cost.dual_form_svm_deriv s.alpha s.input_set s.output_set
  let d ← Hd.scalar_multiplyn g learning_rate
  Hd.sub s.alpha d
  alpha_projection s
  let b ← biasGradient s ri rj
  let s := { s with bias := s.bias - b * learning_rate }
  forward_pass s

/-- `gradient_descent(learning_rate, max_epoch, ui)`, dual_svc.cpp:47-107. -/
def gradient_descent (s : DualSvc) (learning_rate : ℝ) (max_epoch : Int) : M ℝ DualSvc := do
  let s ← forward_pass s
  let size ← Hd.sizem s.input_set
  let ri ← newVec
  resizeTo ri ⟨size.x, 1, 1⟩
  let rj ← newVec
  resizeTo rj ⟨size.x, 1, 1⟩
  epochs max_epoch s fun _ s => gdBody learning_rate (some ri) (some rj) s

/-- `score()`, dual_svc.cpp:182-185. -/
def score (s : DualSvc) : M ℝ ℝ := Utilities.performance_vec s.y_hat.vec s.output_set.vec

/-- The constructor with data, dual_svc.cpp:193-215 (`kernel_functionm`, 313-322, returns the product of the inputs with their transpose). -/
def create (gw gb : Utilities.Source) (p_input_set p_output_set : Ref) (p_C : ℝ) : M ℝ DualSvc := do
  let size ← Hd.sizem p_input_set
  let z ← newVec
  let y_hat ← newVec
  let alpha ← newVec
  resizeTo y_hat ⟨size.y, 1, 1⟩
  let bias ← Utilities.bias_initializationr gb
  resizeTo alpha ⟨size.y, 1, 1⟩
  Utilities.weight_initializationv gw (some alpha.id) .default
  let t ← Hd.transposen p_input_set
  let K ← Hd.multn p_input_set t
  pure ⟨p_input_set, p_output_set, some z, some y_hat, bias, some alpha, K, p_C, size.y, size.x⟩

end DualSvc
end
end Verif
