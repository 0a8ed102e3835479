import Verif.Model.Simple

/-! # The setters and getters of `MLPPKNN` (modules/knn/knn.cpp); histories of calls -/

namespace Verif.KNN
noncomputable section

/-- `MLPPKNN()`, knn.cpp:91-93. -/
def blank : KNN := ⟨none, none, 0⟩

/-- `set_input_set(val)`, knn.cpp:44-46. -/
def set_input_set (s : KNN) (val : Option Nat) : KNN := { s with input_set := val }
/-- `set_output_set(val)`, knn.cpp:51-53. -/
def set_output_set (s : KNN) (val : Option Nat) : KNN := { s with output_set := val }
/-- `set_k(val)`, knn.cpp:58-60. -/
def set_k (s : KNN) (val : Int) : KNN := { s with k := val }

/-- `get_input_set()`, knn.cpp:41-43. -/
def get_input_set (s : KNN) : Option Nat := s.input_set
/-- `get_output_set()`, knn.cpp:48-50. -/
def get_output_set (s : KNN) : Option Nat := s.output_set
/-- `get_k()`, knn.cpp:55-57. -/
def get_k (s : KNN) : Int := s.k

/-- A call on an object: of a setter, or a question. -/
inductive Call where
  | set_input_set (val : Option Nat)
  | set_output_set (val : Option Nat)
  | set_k (val : Int)
  | model_test (x : Ref)
  | model_set_test (X : Option Nat)
  | score

/-- What a call does to the object; the answers to questions are dropped. -/
def call (s : KNN) : Call → M ℝ KNN
  | .set_input_set v => pure (KNN.set_input_set s v)
  | .set_output_set v => pure (KNN.set_output_set s v)
  | .set_k v => pure (KNN.set_k s v)
  | .model_test x => do
    let _ ← KNN.model_test s x
    pure s
  | .model_set_test X => do
    let _ ← KNN.model_set_test s X
    pure s
  | .score => do
    let _ ← KNN.score s
    pure s

/-- A history of calls. -/
def run (s : KNN) : List Call → M ℝ KNN
  | [] => pure s
  | c :: hist => do
    let s ← call s c
    run s hist

end
end Verif.KNN
