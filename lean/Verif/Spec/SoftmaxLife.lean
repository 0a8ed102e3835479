import Verif.Spec.MlpLife
import Verif.Model.SoftmaxSetters

/-! # Specification vocabulary for the life of a softmax regression -/

namespace Verif.Spec.SoftmaxLife
open SoftmaxReg
noncomputable section

/-- The inputs set last, none at first. -/
def lastInput (hist : List Call) : Ref := lastValue (fun | .set_input_set v => some v | _ => none) hist none
/-- The outputs set last, none at first. -/
def lastOutput (hist : List Call) : Ref := lastValue (fun | .set_output_set v => some v | _ => none) hist none

/-- The last call of `initialize` that had inputs and outputs had inputs of `k` columns and outputs of `c` columns. -/
def Fitted (h : Heap ℝ) (n : Nat) (hist : List Call) (k c : Nat) : Prop :=
  ∃ before gw gb after, hist = before ++ .initialize_ gw gb :: after ∧
    (∃ X : Matrix (Fin n) (Fin k) ℝ, HasM h (lastInput before) X) ∧ (∃ Y : Matrix (Fin n) (Fin c) ℝ, HasM h (lastOutput before) Y) ∧
    ∀ pre g g' post, after = pre ++ .initialize_ g g' :: post →
      lastInput (before ++ .initialize_ gw gb :: pre) = none ∨ lastOutput (before ++ .initialize_ gw gb :: pre) = none

/-- The object refuses to predict, answers the score 0, and training leaves it as it is. -/
def Refuses (s : SoftmaxReg) (h : Heap ℝ) : Prop :=
  ∀ (r : Ref) (pick : Nat → Nat) (lr : ℝ) (e b : Int), model_test s r h = .ok (none, h) ∧ model_set_test s r h = .ok (none, h) ∧ score s h = .ok (0, h) ∧
    train_gradient_descent s lr e h = .ok (s, h) ∧ train_sgd s pick lr e h = .ok (s, h) ∧ train_mbgd s lr e b h = .ok (s, h)

/-- What a call is given: inputs and outputs of `n` samples, with any number of columns, in existence before the object was made. -/
def Admissible (h : Heap ℝ) (n : Nat) : Call → Prop
  | .set_input_set v => v = none ∨ ∃ (k : Nat) (X : Matrix (Fin n) (Fin k) ℝ), HasM h v X
  | .set_output_set v => v = none ∨ ∃ (c : Nat) (Y : Matrix (Fin n) (Fin c) ℝ), HasM h v Y
  | _ => True

end
end Verif.Spec.SoftmaxLife
