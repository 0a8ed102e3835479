import Verif.Model.Eigen
import Verif.Model.HandleM
import Verif.Model.Text

/-! # Latent semantic analysis (core/data.cpp) -/

namespace Verif.Data
open Text

/-- The loop of `lsa`, data.cpp:909-914. -/
def truncate (S Vt S_trunc Vt_trunc row_rmp : Ref) (dim : Nat) : M ℝ Unit :=
  forN dim fun i => do
    let x ← Hd.element_getm S (i : Nat) (i : Nat)
    Hd.element_setm S_trunc (i : Nat) (i : Nat) x
    Hd.row_get_into Vt (i : Nat) row_rmp
    Hd.row_set_mlpp_vector Vt_trunc (i : Nat) row_rmp

/-- `lsa(sentences, dim)`, data.cpp:893-918, for a `dim` that is not negative; `low` is the conversion to lower case and `stop_words` the list
of stop words, as in `Text.bag_of_words`; `none` if the singular value decomposition has not ended within `fuel` rounds. -/
noncomputable def lsa (fuel : Nat) (low : Char → Char) (stop_words sentences : List Str) (dim : Nat) : M ℝ (Option Ref) := do
  let doc_word_data ← bag_of_words low stop_words sentences .binary
  let svr_res ← Eigen.linAlgSvd fuel doc_word_data
  match svr_res with
  | none => pure none
  | some svr_res => do
    let S_trunc ← LinAlg.zeromatnm (R := ℝ) dim dim
    let vs ← Hd.sizem svr_res.Vt
    let Vt_trunc ← newMat
    resizeTo Vt_trunc ⟨vs.x, dim, 1⟩
    let row_rmp ← newVec
    resizeTo row_rmp ⟨vs.x, 1, 1⟩
    truncate svr_res.S svr_res.Vt S_trunc (some Vt_trunc) (some row_rmp) dim
    let embeddings ← Hd.multn S_trunc (some Vt_trunc)
    pure (some embeddings)

end Verif.Data
