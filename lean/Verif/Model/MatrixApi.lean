import Verif.Model.Matrix
import Verif.Model.VectorApi
import Verif.Spec.Rows

/-! # Histories of `MLPPMatrix` and `MLPPVector` calls -/

namespace Verif
open Spec (VOp Ans MOp MAns)
variable {R : Type}

/-- Dispatch of one call to the modelled method. -/
def Mat.exec [BEq R] [LT R] [DecidableLT R] [Zero R] : MOp R → M R (MAns R)
  | .vec op => do return .vec (← Vec.exec op)
  | .size o => do let s ← size o; return .dims s.x s.y
  | .element_get o y x => do return .val (← element_get o y x)
  | .element_set o y x a => do element_set o y x a; return .unit
  | .row_add o r => do row_add o r; return .unit
  | .row_add_mlpp_vector o v => do row_add_mlpp_vector o v; return .unit
  | .rows_add_mlpp_matrix o p => do rows_add_mlpp_matrix o p; return .unit
  | .row_remove o y => do row_remove o y; return .unit
  | .row_remove_unordered o y => do row_remove_unordered o y; return .unit
  | .row_swap o y y' => do row_swap o y y'; return .unit
  | .row_get_vector o y => do return .list (← row_get_vector o y)
  | .row_get_into_mlpp_vector o y v => do row_get_into_mlpp_vector o y v; return .unit
  | .row_set_vector o y r => do row_set_vector o y r; return .unit
  | .row_set_mlpp_vector o y v => do row_set_mlpp_vector o y v; return .unit
  | .fill o a => do fill o a; return .unit
  | .set_from o p => do set_from_mlpp_matrix o p; return .unit
  | .set_from_vectors o rs => do set_from_vectors o rs; return .unit
  | .clear o => do clear o; return .unit
  | .reset o => do reset o; return .unit
  | .resize o c r => do resize o c r; return .unit

/-- A sequence of calls. -/
def Mat.execAll [BEq R] [LT R] [DecidableLT R] [Zero R] : List (MOp R) → M R (List (MAns R))
  | [] => pure []
  | op :: ops => do
    let a ← exec op
    let as ← execAll ops
    pure (a :: as)

end Verif
