import Verif.Spec.Svc
import Verif.Spec.Handle
import Verif.Model.DualSvc

/-! # Specification vocabulary for the dual support vector classifier -/

namespace Verif.Spec
open Finset
noncomputable section
variable {n k m : Nat}

/-- `Σ_j α_j y_j ⟨x_j, x⟩ + b`, where `x_j` is row `j` of `X`. -/
def dualScore (X : Matrix (Fin n) (Fin k) ℝ) (y α : Fin n → ℝ) (b : ℝ) (x : Fin k → ℝ) : ℝ := ∑ j, α j * y j * ∑ l, X j l * x l + b

/-- The object is set up with inputs `X`, outputs `y`, multipliers `α` and bias `b`. -/
structure DualReady (s : DualSvc) (h : Heap ℝ) (X : Matrix (Fin n) (Fin k) ℝ) (y α : Fin n → ℝ) (b : ℝ) : Prop where
  wf : h.WF
  input : HasM h s.input_set X
  output : HasV h s.output_set y
  alpha : HasV h s.alpha α
  bias : s.bias = b
  apart : s.output_set ≠ s.alpha

/-- After training: the object is set up with the same data, the multipliers are `α` and the bias is `b`, the stored scores and predictions are those
of `α` and `b`; of the objects that existed before, at most the vector of multipliers has changed. -/
structure DualTrained (s : DualSvc) (h : Heap ℝ) (s' : DualSvc) (h' : Heap ℝ) (X : Matrix (Fin n) (Fin k) ℝ) (y α : Fin n → ℝ) (b : ℝ) : Prop where
  ready : DualReady s' h' X y α b
  scores : HasV h' s'.z fun i => dualScore X y α b (X i)
  shown : HasV h' s'.y_hat fun i => signOf (dualScore X y α b (X i))
  same : s' = { s with z := s'.z, y_hat := s'.y_hat, bias := b }
  frame : Keeps h h' (some · = s.alpha)

/-- The nearest number in `[0, C]`. -/
def clamp (C x : ℝ) : ℝ := max 0 (min C x)

/-- One step of projected gradient descent on the dual problem. -/
def DualStep (X : Matrix (Fin n) (Fin k) ℝ) (y : Fin n → ℝ) (C learning_rate : ℝ) (α α' : Fin n → ℝ) : Prop :=
  ∃ g : Fin n → ℝ, Gradient (svmDual X y) α g ∧ ∀ i, α' i = clamp C (α i - learning_rate * g i)

end
end Verif.Spec
