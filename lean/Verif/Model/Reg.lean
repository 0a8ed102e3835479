import Verif.Model.Activation

/-!
# `MLPPReg` (core/reg.cpp)

`real_t` is the real numbers. Every handle parameter is converted as in `Model/LinAlg.lean`; no function checks for null.
-/

namespace Verif.Reg
open LinAlg
noncomputable section

/-- `RegularizationType`, reg.h:52-58. -/
inductive Kind where
  | none
  | ridge
  | lasso
  | elastic_net
  | weight_clipping

/-- The three loops of `reg_termv` and `reg_termm` over the `n` cells of `w`, reg.cpp:49-70, 78-99. `ABS` is platform/sfw.h. -/
def termLoop (w : Loc) (n : Nat) (lambda alpha : ℝ) : Kind → M ℝ ℝ
  | .ridge => do
    let reg ← foldN n 0 fun i reg => do
      let wi ← load w i
      pure (reg + wi * wi)
    pure (reg * lambda / 2)
  | .lasso => do
    let reg ← foldN n 0 fun i reg => do
      let wi ← load w i
      pure (reg + absC wi)
    pure (reg * lambda)
  | .elastic_net => do
    let reg ← foldN n 0 fun i reg => do
      let wi ← load w i
      pure (reg + alpha * absC wi + (1 - alpha) / 2 * wi * wi)
    pure (reg * lambda)
  | .none => pure 0
  | .weight_clipping => pure 0

/-- `reg_termv(weights, lambda, alpha, reg)`, reg.cpp:45-73. -/
def reg_termv (weights : Ref) (lambda alpha : ℝ) (reg : Kind) : M ℝ ℝ := do
  let w ← deref weights.asV
  let s ← getSize w
  termLoop w s.count lambda alpha reg

/-- `reg_termm(weights, lambda, alpha, reg)`, reg.cpp:74-102. -/
def reg_termm (weights : Ref) (lambda alpha : ℝ) (reg : Kind) : M ℝ ℝ := do
  let w ← deref weights.asM
  let s ← getSize w
  termLoop w s.count lambda alpha reg

/-- The value computed from one weight by `reg_deriv_termvr`, reg.cpp:197-215, and `reg_deriv_termmr`, 222-240. -/
def derivTerm (lambda alpha : ℝ) (reg : Kind) (wj : ℝ) : ℝ :=
  match reg with
  | .ridge => lambda * wj
  | .lasso => lambda * Activation.sign_normr wj
  | .elastic_net => alpha * lambda * Activation.sign_normr wj + (1 - alpha) * lambda * wj
  | .weight_clipping => if wj > alpha then alpha else if wj < lambda then lambda else wj
  | .none => 0

/-- `reg_deriv_termvr(weights, lambda, alpha, reg, j)`, reg.cpp:192-216. -/
def reg_deriv_termvr (weights : Ref) (lambda alpha : ℝ) (reg : Kind) (j : Int) : M ℝ ℝ := do
  let w ← derefV weights
  let wj ← Vec.element_get w j
  pure (derivTerm lambda alpha reg wj)

/-- `reg_deriv_termmr(weights, lambda, alpha, reg, i, j)`, reg.cpp:217-241. -/
def reg_deriv_termmr (weights : Ref) (lambda alpha : ℝ) (reg : Kind) (i j : Int) : M ℝ ℝ := do
  let w ← derefM weights
  let wj ← Mat.element_get w i j
  pure (derivTerm lambda alpha reg wj)

/-- `reg_deriv_termv(weights, lambda, alpha, reg)`, reg.cpp:135-150. -/
def reg_deriv_termv (weights : Ref) (lambda alpha : ℝ) (reg : Kind) : M ℝ Ref := do
  let d ← newVec
  let w ← derefV weights
  let n ← Vec.size w
  resizeTo d ⟨n, 1, 1⟩
  forN n fun i => do
    let x ← reg_deriv_termvr weights lambda alpha reg (i : Int)
    store d i x
  pure (some d)

/-- `reg_deriv_termm(weights, lambda, alpha, reg)`, reg.cpp:151-168. -/
def reg_deriv_termm (weights : Ref) (lambda alpha : ℝ) (reg : Kind) : M ℝ Ref := do
  let d ← newMat
  let w ← derefM weights
  let s ← Mat.size w
  resizeTo d s
  forN s.y fun i =>
    forN s.x fun j => do
      let ds ← getSize d
      let x ← reg_deriv_termmr weights lambda alpha reg (i : Int) (j : Int)
      store d (i * ds.x + j) x
  pure (some d)

/-- `reg_weightsv(weights, lambda, alpha, reg)`, reg.cpp:104-117. -/
def reg_weightsv (weights : Ref) (lambda alpha : ℝ) (reg : Kind) : M ℝ Ref :=
  match reg with
  | .weight_clipping => reg_deriv_termv weights lambda alpha reg
  | _ => app1 (subtractionnv weights) (reg_deriv_termv weights lambda alpha reg)

/-- `reg_weightsm(weights, lambda, alpha, reg)`, reg.cpp:118-133. -/
def reg_weightsm (weights : Ref) (lambda alpha : ℝ) (reg : Kind) : M ℝ Ref :=
  match reg with
  | .weight_clipping => reg_deriv_termm weights lambda alpha reg
  | _ => app1 (subtractionnm weights) (reg_deriv_termm weights lambda alpha reg)

end
end Verif.Reg
