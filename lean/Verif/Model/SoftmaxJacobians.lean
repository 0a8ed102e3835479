import Verif.Model.Softmax
import Verif.Model.HandleM

/-! # The "Jacobian matrices" of softmax of a matrix (core/activation.cpp) -/

namespace Verif.Activation
open LinAlg

/-- The body of the inner loop of `softmax_deriv_normm`, activation.cpp:1152-1163. -/
def jacobianRow (a a_i_tmp a_j_tmp d : Ref) (i j : Nat) : M ℝ Unit := do
  Hd.row_get_into a (i : Nat) a_i_tmp
  if i = j then do
    let q ← hadamard_productnv a_i_tmp a_i_tmp
    let d_j ← subtractionnv a_i_tmp q
    Hd.row_set_mlpp_vector d (j : Nat) d_j
  else do
    Hd.row_get_into a (j : Nat) a_j_tmp
    let q ← hadamard_productnv a_i_tmp a_j_tmp
    let d_j ← scalar_multiplynv (-1) q
    Hd.row_set_mlpp_vector d (j : Nat) d_j

/-- `softmax_deriv_normm(z)`, activation.cpp:1127-1169; `softmax_deriv_derivm(z)`, activation.cpp:1195-1237, has the same body. -/
noncomputable def softmax_deriv_normm (z : Ref) : M ℝ (List Ref) := do
  let zs ← Hd.sizem z
  let a ← softmax_normm z
  let s ← Hd.sizem a
  let a_i_tmp ← newVec
  resizeTo a_i_tmp ⟨s.x, 1, 1⟩
  let a_j_tmp ← newVec
  resizeTo a_j_tmp ⟨s.x, 1, 1⟩
  foldN s.y [] fun i deriv => do
    let d ← newMat
    resizeTo d ⟨s.x, zs.y, 1⟩
    forN zs.y fun j => jacobianRow a (some a_i_tmp) (some a_j_tmp) (some d) i j
    pure (deriv ++ [some d])

end Verif.Activation
