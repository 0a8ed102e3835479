import Verif.Model.Reg
import Verif.Model.Softmax

/-!
# `MLPPCost` (core/cost.cpp)

`real_t` is the real numbers. Every handle parameter is converted as in `Model/LinAlg.lean`. The loss functions dereference
both operands without a null check. Division by the number of elements and `log` are the real functions; in IEEE arithmetic
an empty operand gives `0/0`, so the theorems assume at least one element where the code divides by that number.
-/

namespace Verif.Cost
open LinAlg
noncomputable section

/-- The common shape of the losses: sizes compared (a mismatch returns `0`), `sum += f(y_hat[i], y[i])`, then `g(sum, extents)`,
as in cost.cpp:37-51. -/
def lossOf (f : ℝ → ℝ → ℝ) (g : ℝ → Size → ℝ) (y_hat y : Option Loc) : M ℝ ℝ := do
  let a ← deref y_hat
  let s ← getSize a
  let b ← deref y
  let sb ← getSize b
  if s.count = sb.count then do
    let sum ← foldN s.count 0 fun i sum => do
      let p ← load a i
      let q ← load b i
      pure (sum + f p q)
    pure (g sum s)
  else pure 0

/-- The common shape of the derivatives that are computed by a loop, cost.cpp:461-484: a mismatch of the sizes returns null, the
result has the extents of `y_hat`. -/
def derivOf (mk : M ℝ Loc) (f : ℝ → ℝ → ℝ) (y_hat y : Option Loc) : M ℝ Ref := do
  let a ← deref y_hat
  let s ← getSize a
  let b ← deref y
  let sb ← getSize b
  if s.count = sb.count then do
    let deriv ← mk
    resizeTo deriv s
    binLoop f a b deriv s.count
    pure (some deriv)
  else pure none

/-- One term of the squared error, cost.cpp:47, 62, 88, 103. -/
def sqErr (p q : ℝ) : ℝ := (p - q) * (p - q)
/-- One term of the absolute error, cost.cpp:130, 144. -/
def absErr (p q : ℝ) : ℝ := absC (p - q)
/-- One term of the bias error, cost.cpp:209, 224. -/
def biasErr (p q : ℝ) : ℝ := p - q
/-- `eps`, cost.cpp:249, 266. -/
def eps : ℝ := 1 / 100000000
/-- One term of the logistic loss, cost.cpp:251, 268. -/
def logTerm (p q : ℝ) : ℝ := -(q * Real.log (p + eps) + (1 - q) * Real.log (1 - p + eps))
/-- One term of the cross entropy, cost.cpp:298, 313. -/
def ceTerm (p q : ℝ) : ℝ := q * Real.log p
/-- One term of the Huber loss, cost.cpp:339-343, 359-363. -/
def huberTerm (delta p q : ℝ) : ℝ :=
  if absC (q - p) ≤ delta then (q - p) * (q - p) else 2 * delta * absC (q - p) - delta * delta
/-- One term of the hinge loss, cost.cpp:440, 455. -/
def hingeTerm (p q : ℝ) : ℝ := maxC 0 (1 - q * p)
/-- One term of the Wasserstein loss, cost.cpp:546, 561. -/
def wassTerm (p q : ℝ) : ℝ := p * q

/-- One cell of the derivative of the Huber loss, cost.cpp:386-395, 416-425. -/
def huberDeriv (delta p q : ℝ) : ℝ :=
  if absC (q - p) ≤ delta then -(q - p)
  else if 0 < p ∨ p < 0 then 2 * delta * (p / absC p) else 0
/-- One cell of the derivative of the hinge loss, cost.cpp:476-480, 500-504. -/
def hingeDeriv (p q : ℝ) : ℝ := if 0 < 1 - q * p then -q else 0

/-! ## Losses -/

/-- `msev(y_hat, y)`, cost.cpp:37-51: `sum / 2 * size` is `(sum / 2) * size`. -/
def msev (y_hat y : Ref) : M ℝ ℝ := lossOf sqErr (fun sum s => sum / 2 * s.count) y_hat.asV y.asV
/-- `msem(y_hat, y)`, cost.cpp:52-66: `sum / 2 * size` is `(sum / 2) * size`. -/
def msem (y_hat y : Ref) : M ℝ ℝ := lossOf sqErr (fun sum s => sum / 2 * s.count) y_hat.asM y.asM
/-- `rmsev(y_hat, y)`, cost.cpp:78-92. -/
def rmsev (y_hat y : Ref) : M ℝ ℝ := lossOf sqErr (fun sum s => Real.sqrt (sum / s.count)) y_hat.asV y.asV
/-- `rmsem(y_hat, y)`, cost.cpp:93-107: the sum is divided by the number of *rows*. -/
def rmsem (y_hat y : Ref) : M ℝ ℝ := lossOf sqErr (fun sum s => Real.sqrt (sum / s.y)) y_hat.asM y.asM
/-- `maev(y_hat, y)`, cost.cpp:120-133. -/
def maev (y_hat y : Ref) : M ℝ ℝ := lossOf absErr (fun sum s => sum / s.count) y_hat.asV y.asV
/-- `maem(y_hat, y)`, cost.cpp:134-148. -/
def maem (y_hat y : Ref) : M ℝ ℝ := lossOf absErr (fun sum s => sum / s.count) y_hat.asM y.asM
/-- `mbev(y_hat, y)`, cost.cpp:199-213. -/
def mbev (y_hat y : Ref) : M ℝ ℝ := lossOf biasErr (fun sum s => sum / s.count) y_hat.asV y.asV
/-- `mbem(y_hat, y)`, cost.cpp:214-228. -/
def mbem (y_hat y : Ref) : M ℝ ℝ := lossOf biasErr (fun sum s => sum / s.count) y_hat.asM y.asM
/-- `log_lossv(y_hat, y)`, cost.cpp:240-255. -/
def log_lossv (y_hat y : Ref) : M ℝ ℝ := lossOf logTerm (fun sum s => sum / s.count) y_hat.asV y.asV
/-- `log_lossm(y_hat, y)`, cost.cpp:257-272. -/
def log_lossm (y_hat y : Ref) : M ℝ ℝ := lossOf logTerm (fun sum s => sum / s.count) y_hat.asM y.asM
/-- `cross_entropyv(y_hat, y)`, cost.cpp:288-302. -/
def cross_entropyv (y_hat y : Ref) : M ℝ ℝ := lossOf ceTerm (fun sum _ => -1 * sum) y_hat.asV y.asV
/-- `cross_entropym(y_hat, y)`, cost.cpp:303-317. -/
def cross_entropym (y_hat y : Ref) : M ℝ ℝ := lossOf ceTerm (fun sum _ => -1 * sum) y_hat.asM y.asM
/-- `huber_lossv(y_hat, y, delta)`, cost.cpp:328-347. -/
def huber_lossv (y_hat y : Ref) (delta : ℝ) : M ℝ ℝ := lossOf (huberTerm delta) (fun sum _ => sum) y_hat.asV y.asV
/-- `huber_lossm(y_hat, y, delta)`, cost.cpp:348-367. -/
def huber_lossm (y_hat y : Ref) (delta : ℝ) : M ℝ ℝ := lossOf (huberTerm delta) (fun sum _ => sum) y_hat.asM y.asM
/-- `hinge_lossv(y_hat, y)`, cost.cpp:430-444. -/
def hinge_lossv (y_hat y : Ref) : M ℝ ℝ := lossOf hingeTerm (fun sum s => sum / s.count) y_hat.asV y.asV
/-- `hinge_lossm(y_hat, y)`, cost.cpp:445-459. -/
def hinge_lossm (y_hat y : Ref) : M ℝ ℝ := lossOf hingeTerm (fun sum s => sum / s.count) y_hat.asM y.asM
/-- `wasserstein_lossv(y_hat, y)`, cost.cpp:536-550. -/
def wasserstein_lossv (y_hat y : Ref) : M ℝ ℝ := lossOf wassTerm (fun sum s => -sum / s.count) y_hat.asV y.asV
/-- `wasserstein_lossm(y_hat, y)`, cost.cpp:551-565. -/
def wasserstein_lossm (y_hat y : Ref) : M ℝ ℝ := lossOf wassTerm (fun sum s => -sum / s.count) y_hat.asM y.asM

/-! ## Derivatives -/

/-- `mse_derivv(y_hat, y)`, cost.cpp:68-71. -/
def mse_derivv (y_hat y : Ref) : M ℝ Ref := subtractionnv y_hat y
/-- `mse_derivm(y_hat, y)`, cost.cpp:73-76. -/
def mse_derivm (y_hat y : Ref) : M ℝ Ref := subtractionnm y_hat y

/-- `rmse_derivv(y_hat, y)`, cost.cpp:109-113. -/
def rmse_derivv (y_hat y : Ref) : M ℝ Ref := do
  let e ← msev y_hat y
  app1 (scalar_multiplynv (1 / (2 * Real.sqrt e))) (mse_derivv y_hat y)
/-- `rmse_derivm(y_hat, y)`, cost.cpp:114-118: the factor is `1 / (2 / sqrt(...))`. -/
def rmse_derivm (y_hat y : Ref) : M ℝ Ref := do
  let e ← msem y_hat y
  app1 (scalar_multiplynm (1 / (2 / Real.sqrt e))) (mse_derivm y_hat y)

/-- The loop of cost.cpp:160-170, 184-194: the sign of the element converted to `int`. -/
def maeLoop (a deriv : Loc) (n : Nat) : M ℝ Unit :=
  forN n fun i => do
    let x ← load a i
    let k ← Activation.toInt x
    if k < 0 then store deriv i (-1) else if k = 0 then store deriv i 0 else store deriv i 1
/-- `mae_derivv(y_hat, y)`, cost.cpp:150-173: `y` is not used. -/
def mae_derivv (y_hat _y : Ref) : M ℝ Ref := do
  let a ← deref y_hat.asV
  let s ← getSize a
  let deriv ← newVec
  resizeTo deriv s
  maeLoop a deriv s.count
  pure (some deriv)
/-- `mae_derivm(y_hat, y)`, cost.cpp:174-197: `y` is not used. -/
def mae_derivm (y_hat _y : Ref) : M ℝ Ref := do
  let a ← deref y_hat.asM
  let s ← getSize a
  let deriv ← newMat
  resizeTo deriv s
  maeLoop a deriv s.count
  pure (some deriv)

/-- `mbe_derivv(y_hat, y)`, cost.cpp:230-233. -/
def mbe_derivv (y_hat _y : Ref) : M ℝ Ref := do
  let a ← deref y_hat.asV
  let s ← getSize a
  onevecnv s.count
/-- `mbe_derivm(y_hat, y)`, cost.cpp:234-237: `onematnm` takes the number of rows first. -/
def mbe_derivm (y_hat _y : Ref) : M ℝ Ref := do
  let a ← deref y_hat.asM
  let s ← getSize a
  onematnm s.x s.y

/-- `log_loss_derivv(y_hat, y)`, cost.cpp:274-279. -/
def log_loss_derivv (y_hat y : Ref) : M ℝ Ref :=
  app2 additionnv
    (app1 (scalar_multiplynv (-1)) (app2 division_element_wisenv (pure y) (pure y_hat)))
    (app2 division_element_wisenv (app1 (scalar_multiplynv (-1)) (app1 (scalar_addnv (-1)) (pure y)))
      (app1 (scalar_multiplynv (-1)) (app1 (scalar_addnv (-1)) (pure y_hat))))
/-- `log_loss_derivm(y_hat, y)`, cost.cpp:281-286. -/
def log_loss_derivm (y_hat y : Ref) : M ℝ Ref :=
  app2 additionnm
    (app1 (scalar_multiplynm (-1)) (app2 division_element_wisenvnm (pure y) (pure y_hat)))
    (app2 division_element_wisenvnm (app1 (scalar_multiplynm (-1)) (app1 (scalar_addnm (-1)) (pure y)))
      (app1 (scalar_multiplynm (-1)) (app1 (scalar_addnm (-1)) (pure y_hat))))

/-- `cross_entropy_derivv(y_hat, y)`, cost.cpp:319-322. -/
def cross_entropy_derivv (y_hat y : Ref) : M ℝ Ref :=
  app1 (scalar_multiplynv (-1)) (app2 division_element_wisenv (pure y) (pure y_hat))
/-- `cross_entropy_derivm(y_hat, y)`, cost.cpp:323-326. -/
def cross_entropy_derivm (y_hat y : Ref) : M ℝ Ref :=
  app1 (scalar_multiplynm (-1)) (app2 division_element_wisenvnm (pure y) (pure y_hat))

/-- `huber_loss_derivv(y_hat, y, delta)`, cost.cpp:369-398. -/
def huber_loss_derivv (y_hat y : Ref) (delta : ℝ) : M ℝ Ref := derivOf newVec (huberDeriv delta) y_hat.asV y.asV
/-- `huber_loss_derivm(y_hat, y, delta)`, cost.cpp:399-428. -/
def huber_loss_derivm (y_hat y : Ref) (delta : ℝ) : M ℝ Ref := derivOf newMat (huberDeriv delta) y_hat.asM y.asM
/-- `hinge_loss_derivv(y_hat, y)`, cost.cpp:461-484. -/
def hinge_loss_derivv (y_hat y : Ref) : M ℝ Ref := derivOf newVec hingeDeriv y_hat.asV y.asV
/-- `hinge_loss_derivm(y_hat, y)`, cost.cpp:485-508. -/
def hinge_loss_derivm (y_hat y : Ref) : M ℝ Ref := derivOf newMat hingeDeriv y_hat.asM y.asM

/-- `hinge_losswv(y_hat, y, weights, C)`, cost.cpp:510-515. -/
def hinge_losswv (y_hat y weights : Ref) (C : ℝ) : M ℝ ℝ := do
  let l ← hinge_lossv y_hat y
  let r ← Reg.reg_termv weights 1 0 .ridge
  pure (C * l + r)
/-- `hinge_losswm(y_hat, y, weights, C)`, cost.cpp:516-521: `weights`, a matrix handle, is passed to `reg_termv`, whose parameter is a
vector handle, so that it arrives as null. -/
def hinge_losswm (y_hat y weights : Ref) (C : ℝ) : M ℝ ℝ := do
  let l ← hinge_lossm y_hat y
  let r ← Reg.reg_termv weights.asM 1 0 .ridge
  pure (C * l + r)
/-- `hinge_loss_derivwv(y_hat, y, C)`, cost.cpp:523-528. -/
def hinge_loss_derivwv (y_hat y : Ref) (C : ℝ) : M ℝ Ref := app1 (scalar_multiplynv C) (hinge_loss_derivv y_hat y)
/-- `hinge_loss_derivwm(y_hat, y, C)`, cost.cpp:529-534. -/
def hinge_loss_derivwm (y_hat y : Ref) (C : ℝ) : M ℝ Ref := app1 (scalar_multiplynm C) (hinge_loss_derivm y_hat y)

/-- `wasserstein_loss_derivv(y_hat, y)`, cost.cpp:567-571. -/
def wasserstein_loss_derivv (_y_hat y : Ref) : M ℝ Ref := scalar_multiplynv (-1) y
/-- `wasserstein_loss_derivm(y_hat, y)`, cost.cpp:572-576. -/
def wasserstein_loss_derivm (_y_hat y : Ref) : M ℝ Ref := scalar_multiplynm (-1) y

/-! ## The dual form of the support vector machine -/

/-- `Q = Yᵀ (X Xᵀ) Y` with `Y` the diagonal matrix of `y`, cost.cpp:581-583, 601-603. -/
def svmQ (X y : Ref) : M ℝ Ref := do
  let Y ← diagnm y
  let Xt ← transposenm X
  let K ← matmultnm X Xt
  let Yt ← transposenm Y
  let YK ← matmultnm Yt K
  matmultnm YK Y

/-- `dual_form_svm(alpha, X, y)`, cost.cpp:578-596. -/
def dual_form_svm (alpha X y : Ref) : M ℝ ℝ := do
  let Q ← svmQ X y
  let alpha_m ← newMat
  let a ← derefV alpha
  let n ← Vec.size a
  resizeTo alpha_m ⟨n, 1, 1⟩
  Mat.row_set_mlpp_vector alpha_m.id 0 (some a)
  let aQ ← matmultnm (some alpha_m) Q
  let aT ← transposenm (some alpha_m)
  let res ← matmultnm aQ aT
  let r ← derefM res
  let alphaQ ← Mat.element_get r 0 0
  let one ← onevecnv n
  let d ← dotnv one alpha
  pure (-d + 0.5 * alphaQ)

/-- `dual_form_svm_deriv(alpha, X, y)`, cost.cpp:598-608. -/
def dual_form_svm_deriv (alpha X y : Ref) : M ℝ Ref := do
  let Q ← svmQ X y
  let alphaQDeriv ← mat_vec_multnv Q alpha
  let a ← derefV alpha
  let n ← Vec.size a
  let one ← onevecnv n
  subtractionnv alphaQDeriv one

/-! ## Dispatch

The functions that return a function pointer are modelled by the function they point to. The enumeration has no other values. -/

/-- `CostTypes`, cost.h:54-63. -/
inductive Kind where
  | mse
  | rmse
  | mae
  | mbe
  | logistic_loss
  | cross_entropy
  | hinge_loss
  | wasserstein_loss

/-- `run_cost_norm_vector(cost, y_hat, y)`, cost.cpp:700-721, and `get_cost_function_ptr_normal_vector`, 610-631. -/
def run_cost_norm_vector : Kind → Ref → Ref → M ℝ ℝ
  | .mse => msev
  | .rmse => rmsev
  | .mae => maev
  | .mbe => mbev
  | .logistic_loss => log_lossv
  | .cross_entropy => cross_entropyv
  | .hinge_loss => hinge_lossv
  | .wasserstein_loss => wasserstein_lossv

/-- `run_cost_norm_matrix(cost, y_hat, y)`, cost.cpp:722-743, and `get_cost_function_ptr_normal_matrix`, 632-653. -/
def run_cost_norm_matrix : Kind → Ref → Ref → M ℝ ℝ
  | .mse => msem
  | .rmse => rmsem
  | .mae => maem
  | .mbe => mbem
  | .logistic_loss => log_lossm
  | .cross_entropy => cross_entropym
  | .hinge_loss => hinge_lossm
  | .wasserstein_loss => wasserstein_lossm

/-- `run_cost_deriv_vector(cost, y_hat, y)`, cost.cpp:745-766, and `get_cost_function_ptr_deriv_vector`, 655-676. -/
def run_cost_deriv_vector : Kind → Ref → Ref → M ℝ Ref
  | .mse => mse_derivv
  | .rmse => rmse_derivv
  | .mae => mae_derivv
  | .mbe => mbe_derivv
  | .logistic_loss => log_loss_derivv
  | .cross_entropy => cross_entropy_derivv
  | .hinge_loss => hinge_loss_derivv
  | .wasserstein_loss => wasserstein_loss_derivv

/-- `run_cost_deriv_matrix(cost, y_hat, y)`, cost.cpp:767-788, and `get_cost_function_ptr_deriv_matrix`, 677-698. -/
def run_cost_deriv_matrix : Kind → Ref → Ref → M ℝ Ref
  | .mse => mse_derivm
  | .rmse => rmse_derivm
  | .mae => mae_derivm
  | .mbe => mbe_derivm
  | .logistic_loss => log_loss_derivm
  | .cross_entropy => cross_entropy_derivm
  | .hinge_loss => hinge_loss_derivm
  | .wasserstein_loss => wasserstein_loss_derivm

end
end Verif.Cost
