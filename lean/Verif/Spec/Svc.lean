import Verif.Spec.Glm

/-! # Specification vocabulary for the support vector classifier -/

namespace Verif.Spec
open Finset
noncomputable section
variable {n k : Nat}

/-- `(g, c)` is a subgradient of `L` at `θ`: the linear function with these slopes that agrees with `L` at `θ` is nowhere above `L`. -/
def Subgradient (L : Params k → ℝ) (θ : Params k) (g : Fin k → ℝ) (c : ℝ) : Prop :=
  ∀ η : Params k, L θ + ∑ j, g j * (η.1 j - θ.1 j) + c * (η.2 - θ.2) ≤ L η

/-- One step of the subgradient method on `L`, followed by `D` on every weight. -/
def SubgradStep (L : Params k → ℝ) (learning_rate : ℝ) (D : ℝ → ℝ) (θ θ' : Params k) : Prop :=
  ∃ (g : Fin k → ℝ) (c : ℝ), Subgradient L θ g c ∧ θ' = (fun j => D (θ.1 j - learning_rate * g j), θ.2 - learning_rate * c)

/-- `C` times the mean hinge loss of the linear function with weights and bias `θ`. -/
def svmLoss (C : ℝ) (X : Matrix (Fin n) (Fin k) ℝ) (y : Fin n → ℝ) (θ : Params k) : ℝ := C * hinge (linear X θ) y

/-- -1, 0 or 1. -/
def signOf (z : ℝ) : ℝ := (SignType.sign z : SignType)

end
end Verif.Spec
