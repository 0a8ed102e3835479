import Verif.Spec.Mlp

/-! # Specification vocabulary for the life of a multilayer perceptron -/

namespace Verif.Spec
noncomputable section

/-- The last value that a history sets, `d` if it sets none: `f` says which calls set the value in question, and to what. -/
def lastValue {β α : Type} (f : β → Option α) (hist : List β) (d : α) : α := ((hist.filterMap f).getLast?).getD d

namespace MlpLife

/-- The inputs set last, none at first. -/
def lastInput (hist : List Mlp.Call) : Ref := lastValue (fun | .set_input_set v => some v | _ => none) hist none
/-- The outputs set last, none at first. -/
def lastOutput (hist : List Mlp.Call) : Ref := lastValue (fun | .set_output_set v => some v | _ => none) hist none
/-- The number of hidden units set last, 0 at first. -/
def lastHidden (hist : List Mlp.Call) : Nat := lastValue (fun | .set_n_hidden v => some v | _ => none) hist 0

/-- The call is of a setter. -/
def isSetter : Mlp.Call → Prop
  | .set_input_set _ | .set_output_set _ | .set_n_hidden _ | .set_lambda _ | .set_alpha _ | .set_reg _ => True
  | _ => False

/-- The history sets the object up: `initialize` is called when there are inputs, outputs and hidden units, and no setter is called afterwards. -/
def SetUp (hist : List Mlp.Call) : Prop :=
  ∃ before gw1 gw2 gb1 gb2 after, hist = before ++ .initialize_ gw1 gw2 gb1 gb2 :: after ∧ lastInput before ≠ none ∧ lastOutput before ≠ none ∧
    lastHidden before ≠ 0 ∧ ∀ c ∈ after, ¬ isSetter c

/-- What a call is given: inputs of `n` samples, with any number of columns, outputs of `n` samples, both in existence before the object was made; draws
of samples that exist; a batch size between 1 and the number of samples. -/
def Admissible (h : Heap ℝ) (n : Nat) : Mlp.Call → Prop
  | .set_input_set v => v = none ∨ ∃ (k : Nat) (X : Matrix (Fin n) (Fin k) ℝ), HasM h v X
  | .set_output_set v => v = none ∨ ∃ y : Fin n → ℝ, HasV h v y
  | .sgd pick _ _ => ∀ e, pick e < n
  | .mbgd _ _ b => 0 < b ∧ b ≤ n
  | _ => True

end MlpLife
end
end Verif.Spec
