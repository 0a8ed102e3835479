import Verif.Model.Vector
import Verif.Spec.Vector

/-! # Histories of `MLPPVector` calls -/

namespace Verif
open Spec (VOp Ans)
variable {R : Type}

/-- Dispatch of one call of the container API to the modelled method. -/
def Vec.exec [BEq R] [LT R] [DecidableLT R] [Zero R] : VOp R → M R (Ans R)
  | .size i => do return .int (← size i)
  | .element_get i p => do return .val (← element_get i p)
  | .element_set i p x => do element_set i p x; return .unit
  | .find i x k => do return .int (← find i x k)
  | .get_data i => do return .list (← get_data i)
  | .set_data i xs => do set_data i xs; return .unit
  | .push_back i x => do push_back i x; return .unit
  | .append i j => do append_mlpp_vector i j; return .unit
  | .set_from i j => do set_from_mlpp_vector i j; return .unit
  | .insert i p x => do insert i p x; return .unit
  | .ordered_insert i x => do ordered_insert i x; return .unit
  | .remove i p => do remove i p; return .unit
  | .remove_unordered i p => do remove_unordered i p; return .unit
  | .erase i x => do erase i x; return .unit
  | .erase_multiple_unordered i x => do return .int (← erase_multiple_unordered i x)
  | .invert i => do invert i; return .unit
  | .fill i x => do fill i x; return .unit
  | .clear i => do clear i; return .unit
  | .reset i => do reset i; return .unit
  | .resize i n => do resize i n; return .unit

/-- A sequence of calls. -/
def Vec.execAll [BEq R] [LT R] [DecidableLT R] [Zero R] : List (VOp R) → M R (List (Ans R))
  | [] => pure []
  | op :: ops => do
    let a ← exec op
    let as ← execAll ops
    pure (a :: as)

end Verif
