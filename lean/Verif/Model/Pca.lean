import Verif.Model.Eigen
import Verif.Model.Data

/-! # Principal component analysis (modules/pca/pca.cpp) -/

namespace Verif

/-- The members of `MLPPPCA`, pca.h:63-70. The number of components is an `int` in the source; here it is not negative. -/
structure Pca where
  input_set : Ref
  k : Nat
  x_normalized : Ref
  u_reduce : Ref
  z : Ref

namespace Pca

/-- `MLPPPCA(p_input_set, p_k)`, pca.cpp:116-123, and `MLPPPCA()`, pca.cpp:125-131, with no input set and `k = 0`. -/
def create (p_input_set : Ref) (p_k : Nat) : M ℝ Pca := do
  let x ← newMat
  let u ← newMat
  let z ← newMat
  pure ⟨p_input_set, p_k, some x, some u, some z⟩

/-- `set_input_set(val)`, pca.cpp:38-40. -/
def set_input_set (s : Pca) (val : Ref) : Pca := { s with input_set := val }

/-- `set_k(val)`, pca.cpp:45-47. -/
def set_k (s : Pca) (val : Nat) : Pca := { s with k := val }

/-- The loop that fills `_u_reduce`, pca.cpp:61-65. -/
def reduce (u_reduce U : Ref) (k rows : Nat) : M ℝ Unit :=
  forN k fun i => forN rows fun j => do
    let x ← Hd.element_getm U (j : Nat) (i : Nat)
    Hd.element_setm u_reduce (j : Nat) (i : Nat) x

/-- `principal_components()`, pca.cpp:49-70: the handle returned and the object afterwards; `none` if the singular value decomposition has
not ended within `fuel` rounds. -/
noncomputable def principal_components (fuel : Nat) (s : Pca) : M ℝ (Option (Ref × Pca)) :=
  if s.input_set = none ∨ s.k = 0 then pure (some (none, s))
  else do
    let x ← derefM s.input_set
    let c ← Mat.cov x
    let svr_res ← Eigen.matSvd fuel c
    match svr_res with
    | none => pure none
    | some svr_res => do
      let x_normalized ← Data.mean_centering s.input_set
      let us ← Hd.sizem svr_res.U
      Hd.resizem s.u_reduce ⟨s.k, us.y, 1⟩
      reduce s.u_reduce svr_res.U s.k us.y
      let t ← Hd.transposen s.u_reduce
      let z ← Hd.multn t x_normalized
      pure (some (z, { s with x_normalized := x_normalized, z := z }))

/-- The first loop of `score`, pca.cpp:92-97. -/
def residual (x_normalized x_approx x_normalized_row_tmp x_approx_row_tmp : Ref) (rows : Nat) : M ℝ ℝ :=
  foldN rows (0 : ℝ) fun i num => do
    Hd.row_get_into x_normalized (i : Nat) x_normalized_row_tmp
    Hd.row_get_into x_approx (i : Nat) x_approx_row_tmp
    let d ← Hd.subn x_normalized_row_tmp x_approx_row_tmp
    let q ← Hd.norm_sq d
    pure (num + q)

/-- The second loop of `score`, pca.cpp:101-105. -/
def spread (x_normalized x_normalized_row_tmp : Ref) (rows : Nat) : M ℝ ℝ :=
  foldN rows (0 : ℝ) fun i den => do
    Hd.row_get_into x_normalized (i : Nat) x_normalized_row_tmp
    let q ← Hd.norm_sq x_normalized_row_tmp
    pure (den + q)

/-- `score()`, pca.cpp:73-114. -/
noncomputable def score (s : Pca) : M ℝ ℝ :=
  if s.input_set = none ∨ s.k = 0 then pure 0
  else do
    let x_approx ← Hd.multn s.u_reduce s.z
    let xs ← Hd.sizem s.x_normalized
    let as ← Hd.sizem x_approx
    let x_approx_row_tmp ← newVec
    resizeTo x_approx_row_tmp ⟨as.x, 1, 1⟩
    let x_normalized_row_tmp ← newVec
    resizeTo x_normalized_row_tmp ⟨xs.x, 1, 1⟩
    let num ← residual s.x_normalized x_approx (some x_normalized_row_tmp) (some x_approx_row_tmp) xs.y
    let den ← spread s.x_normalized (some x_normalized_row_tmp) xs.y
    let den := den / (xs.y : ℝ)
    pure (1 - num / (xs.y : ℝ) / (if den = 0 then den + 1e-10 else den))

end Pca
end Verif
