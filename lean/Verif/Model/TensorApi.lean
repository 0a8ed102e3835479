import Verif.Model.Tensor
import Verif.Spec.Slices

/-! # Histories of `MLPPTensor3` calls -/

namespace Verif
open Spec (TOp TAns)
variable {R : Type}

/-- Dispatch of one call to the modelled method. -/
def Ten.exec [Zero R] : TOp R → M R (TAns R)
  | .size o => do let s ← size o; return .dims s.x s.y s.z
  | .element_get o z y x => do return .val (← element_get o z y x)
  | .element_set o z y x a => do element_set o z y x a; return .unit
  | .z_slice_add o l => do z_slice_add o l; return .unit
  | .z_slice_add_mlpp_vector o v => do z_slice_add_mlpp_vector o v; return .unit
  | .z_slice_add_mlpp_matrix o m => do z_slice_add_mlpp_matrix o m; return .unit
  | .z_slice_remove o z => do z_slice_remove o z; return .unit
  | .z_slice_remove_unordered o z => do z_slice_remove_unordered o z; return .unit
  | .z_slice_swap o z z' => do z_slice_swap o z z'; return .unit
  | .z_slice_get_vector o z => do return .list (← z_slice_get_vector o z)
  | .z_slice_get_into_mlpp_vector o z v => do z_slice_get_into_mlpp_vector o z v; return .unit
  | .z_slice_get_into_mlpp_matrix o z m => do z_slice_get_into_mlpp_matrix o z m; return .unit
  | .z_slice_set_vector o z l => do z_slice_set_vector o z l; return .unit
  | .z_slice_set_mlpp_vector o z v => do z_slice_set_mlpp_vector o z v; return .unit
  | .z_slice_set_mlpp_matrix o z m => do z_slice_set_mlpp_matrix o z m; return .unit
  | .row_get o z y => do return .list (← row_get_pool_vector o z y)
  | .row_get_into_mlpp_vector o z y v => do row_get_into_mlpp_vector o z y v; return .unit
  | .row_set_vector o z y l => do row_set_vector o z y l; return .unit
  | .row_set_mlpp_vector o z y v => do row_set_mlpp_vector o z y v; return .unit
  | .fill o a => do fill o a; return .unit
  | .set_from_tensor o p => do set_from_mlpp_tensor3 o p; return .unit
  | .set_from_matrix o m => do set_from_mlpp_matrix o m; return .unit
  | .clear o => do clear o; return .unit
  | .reset o => do reset o; return .unit
  | .resize o c r d => do resize o ⟨c, r, d⟩; return .unit
  | .shape_set o c r d => do shape_set o ⟨c, r, d⟩; return .unit

/-- A sequence of calls. -/
def Ten.execAll [Zero R] : List (TOp R) → M R (List (TAns R))
  | [] => pure []
  | op :: ops => do
    let a ← exec op
    let as ← execAll ops
    pure (a :: as)

end Verif
