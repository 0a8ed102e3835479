import Verif.Spec.Tensor
import Mathlib.Analysis.Calculus.Deriv.Basic

/-! # Specification vocabulary for numerical analysis -/

namespace Verif.Spec
variable {R : Type} {d r c n : Nat}

/-- The call returns a handle to a newly created tensor containing `T`, and changes no existing object. -/
def ReturnsTen (k : M R Ref) (h : Heap R) (T : Fin d → Fin r → Fin c → R) : Prop :=
  Runs k h fun p h' => ∃ o, p = some (.t o) ∧ ¬ h.live (.t o) ∧ h'.live (.t o) ∧ h'.WF ∧ Keeps h h' (fun _ => False) ∧ IsTen h' o T

/-- The callback as a function of `n` real variables. -/
def asFun (n : Nat) (f : List ℝ → ℝ) : (Fin n → ℝ) → ℝ := fun u => f (List.ofFn u)

/-- The partial derivative of `F` along coordinate `i`. -/
noncomputable def partialD (F : (Fin n → ℝ) → ℝ) (i : Fin n) : (Fin n → ℝ) → ℝ := fun y => deriv (fun t : ℝ => F (y + Pi.single i t)) 0

/-- All partial derivatives exist everywhere. -/
def HasPartials (F : (Fin n → ℝ) → ℝ) : Prop := ∀ (y : Fin n → ℝ) (i : Fin n), DifferentiableAt ℝ (fun t : ℝ => F (y + Pi.single i t)) 0

end Verif.Spec
