import Verif.Model.Svc

/-! # The setters and getters of `MLPPSVC` (modules/svc/svc.cpp); histories of calls

An object is the record of Model/Svc.lean with its number `_c`. -/

namespace Verif.Svc
noncomputable section

/-- The fields of svc.h:105-112. -/
structure Obj where
  glm : Glm
  c : ℝ

/-- `MLPPSVC()`, svc.cpp:329-336. -/
def blank : M ℝ Obj := do
  let z ← newVec
  let y_hat ← newVec
  let weights ← newVec
  pure ⟨⟨true, none, none, some z, some y_hat, some weights, 0, .none, 0, 0, 0, 0⟩, 0⟩

/-- `MLPPSVC(input_set, output_set, c)`, svc.cpp:316-327. -/
def make (gw gb : Utilities.Source) (input_set output_set : Ref) (c : ℝ) : M ℝ Obj := do
  let s ← create gw gb input_set output_set
  pure ⟨s, c⟩

/-- `set_input_set(val)`, svc.cpp:43-45. -/
def set_input_set (s : Obj) (val : Ref) : Obj := { s with glm := { s.glm with input_set := val } }
/-- `set_c(val)`, svc.cpp:58-60. -/
def set_c (s : Obj) (val : ℝ) : Obj := { s with c := val }
/-- `data_z_set(val)`, svc.cpp:65-67. -/
def data_z_set (s : Obj) (val : Ref) : Obj := { s with glm := { s.glm with z := val } }
/-- `data_y_hat_set(val)`, svc.cpp:72-74. -/
def data_y_hat_set (s : Obj) (val : Ref) : Obj := { s with glm := { s.glm with y_hat := val } }
/-- `data_weights_set(val)`, svc.cpp:79-81. -/
def data_weights_set (s : Obj) (val : Ref) : Obj := { s with glm := { s.glm with weights := val } }
/-- `data_bias_set(val)`, svc.cpp:86-88. -/
def data_bias_set (s : Obj) (val : ℝ) : Obj := { s with glm := { s.glm with bias := val } }

/-- `get_input_set()`, svc.cpp:40-42. -/
def get_input_set (s : Obj) : Ref := s.glm.input_set
/-- `get_output_set()`, svc.cpp:48-50. -/
def get_output_set (s : Obj) : Ref := s.glm.output_set
/-- `get_c()`, svc.cpp:55-57. -/
def get_c (s : Obj) : ℝ := s.c
/-- `data_z_get()`, svc.cpp:62-64. -/
def data_z_get (s : Obj) : Ref := s.glm.z
/-- `data_y_hat_get()`, svc.cpp:69-71. -/
def data_y_hat_get (s : Obj) : Ref := s.glm.y_hat
/-- `data_weights_get()`, svc.cpp:76-78. -/
def data_weights_get (s : Obj) : Ref := s.glm.weights
/-- `data_bias_get()`, svc.cpp:83-85. -/
def data_bias_get (s : Obj) : ℝ := s.glm.bias

/-- A call on an object. `pick e` is the row that `train_sgd` draws in epoch `e`, `gw` and `gb` are the numbers that `initialize` draws. -/
inductive Call where
  | set_input_set (val : Ref)
  | set_output_set (val : Ref)
  | set_c (val : ℝ)
  | data_z_set (val : Ref)
  | data_y_hat_set (val : Ref)
  | data_weights_set (val : Ref)
  | data_bias_set (val : ℝ)
  | initialize_ (gw gb : Utilities.Source)
  | train_gradient_descent (learning_rate : ℝ) (max_epoch : Int)
  | train_sgd (pick : Nat → Nat) (learning_rate : ℝ) (max_epoch : Int)
  | train_mbgd (learning_rate : ℝ) (max_epoch mini_batch_size : Int)

/-- A method that changes the object but not `_c`. -/
def keepC (s : Obj) (f : M ℝ Glm) : M ℝ Obj := do
  let g ← f
  pure { s with glm := g }

/-- What a call does to the object. -/
def call (s : Obj) : Call → M ℝ Obj
  | .set_input_set v => pure (set_input_set s v)
  | .set_output_set v => pure { s with glm := Svc.set_output_set s.glm v }
  | .set_c v => pure (set_c s v)
  | .data_z_set v => pure (data_z_set s v)
  | .data_y_hat_set v => pure (data_y_hat_set s v)
  | .data_weights_set v => pure (data_weights_set s v)
  | .data_bias_set v => pure (data_bias_set s v)
  | .initialize_ gw gb => keepC s (Glm.initialize_ gw gb s.glm)
  | .train_gradient_descent lr e => keepC s (train_gradient_descent s.glm s.c lr e)
  | .train_sgd pick lr e => keepC s (train_sgd s.glm s.c pick lr e)
  | .train_mbgd lr e b => keepC s (train_mbgd s.glm s.c lr e b)

/-- A history of calls. -/
def run (s : Obj) : List Call → M ℝ Obj
  | [] => pure s
  | c :: hist => do
    let s ← call s c
    run s hist

end
end Verif.Svc
