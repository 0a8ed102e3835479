import Verif.Spec.Glm
import Verif.Model.ExpReg
import Mathlib.Analysis.SpecialFunctions.Pow.Deriv

/-! # Specification vocabulary for exponential regression -/

namespace Verif.Spec
open Finset
noncomputable section
variable {n k : Nat}

/-- Initial values `a`, weights `w` and bias `b`. -/
abbrev EParams (k : Nat) := (Fin k → ℝ) × (Fin k → ℝ) × ℝ

/-- `Σ a_j w_j ^ x_j + b` on every row of `X`. -/
def expModel (X : Matrix (Fin n) (Fin k) ℝ) (θ : EParams k) : Fin n → ℝ := fun i => ∑ j, θ.1 j * θ.2.1 j ^ X i j + θ.2.2

/-- Half the mean squared error of the predictions. -/
def expLoss (X : Matrix (Fin n) (Fin k) ℝ) (y : Fin n → ℝ) (θ : EParams k) : ℝ := halfMse (expModel X θ) y

/-- The object is set up, with the initial values in the vector `a`. -/
structure ExpReady (s : Glm) (a : Ref) (h : Heap ℝ) (X : Matrix (Fin n) (Fin k) ℝ) (y : Fin n → ℝ) (θ : EParams k) : Prop where
  base : Ready s h X y θ.2
  init : HasV h a θ.1
  apart_weights : a ≠ s.weights
  apart_output : a ≠ s.output_set

/-- After training: the object is set up with the same data and settings, the parameters are `θ`, the stored predictions are those of `θ`; of the
objects that existed before, at most the old vector of weights and the initial values have changed. -/
structure ExpTrained (s : Glm) (a : Ref) (h : Heap ℝ) (s' : Glm) (h' : Heap ℝ) (X : Matrix (Fin n) (Fin k) ℝ) (y : Fin n → ℝ)
    (θ : EParams k) : Prop where
  ready : ExpReady s' a h' X y θ
  shown : HasV h' s'.y_hat (expModel X θ)
  same : Same s s'
  frame : Keeps h h' (fun l => some l = s.weights ∨ some l = a)

/-- The slopes of `L` at `θ`. -/
structure Slopes (L : EParams k → ℝ) (θ : EParams k) (ga gw : Fin k → ℝ) (gb : ℝ) : Prop where
  init : Gradient (fun a => L (a, θ.2)) θ.1 ga
  weights : Gradient (fun w => L (θ.1, w, θ.2.2)) θ.2.1 gw
  bias : HasDerivAt (fun b => L (θ.1, θ.2.1, b)) gb θ.2.2

/-- One step of gradient descent on `L`, followed by `D` on every weight. -/
def ExpStep (L : EParams k → ℝ) (learning_rate : ℝ) (D : ℝ → ℝ) (θ θ' : EParams k) : Prop :=
  ∃ (ga gw : Fin k → ℝ) (gb : ℝ), Slopes L θ ga gw gb ∧ θ' = (fun j => θ.1 j - learning_rate * ga j, fun j => D (θ.2.1 j - learning_rate * gw j),
    θ.2.2 - learning_rate * gb)

/-- As `ExpStep`, but the slope by a weight is divided by the initial value: `u j` with `gw j = a j * u j`. -/
def ExpStepDiv (L : EParams k → ℝ) (learning_rate : ℝ) (D : ℝ → ℝ) (θ θ' : EParams k) : Prop :=
  ∃ (ga gw : Fin k → ℝ) (gb : ℝ) (u : Fin k → ℝ), Slopes L θ ga gw gb ∧ (∀ j, gw j = θ.1 j * u j) ∧
    θ' = (fun j => θ.1 j - learning_rate * ga j, fun j => D (θ.2.1 j - learning_rate * u j), θ.2.2 - learning_rate * gb)

end
end Verif.Spec
