import Verif.Spec.Matrix
import Verif.Model.UniLinRegLife

/-! # Specification vocabulary for the life of a simple linear regression -/

namespace Verif.Spec.UniLinRegLife
open UniLinReg
noncomputable section
variable {n : Nat}

/-- `b0 + b1 t` is the one line with the least sum of squared errors on the points `(u i, v i)`. -/
def LeastSquares (u v : Fin n → ℝ) (b0 b1 : ℝ) : Prop :=
  ∀ c0 c1, ∑ i, (v i - (b0 + b1 * u i)) ^ 2 ≤ ∑ i, (v i - (c0 + c1 * u i)) ^ 2 ∧
    (∑ i, (v i - (c0 + c1 * u i)) ^ 2 = ∑ i, (v i - (b0 + b1 * u i)) ^ 2 → c0 = b0 ∧ c1 = b1)

/-- Where a coefficient comes from: it was set, or the line was fitted to the vectors `x` and `y`. -/
inductive Origin where
  | value (v : ℝ)
  | fitted (x y : Nat)

/-- What a user knows of an object after some calls: the data set last, and where the coefficients come from. -/
structure Known where
  input : Option Nat
  output : Option Nat
  b0 : Origin
  b1 : Origin

/-- What a call changes: a setter what it sets; `train` both coefficients, if there are inputs and outputs. -/
def knownBy (P : Known) : Call → Known
  | .set_input_set v => { P with input := v }
  | .set_output_set v => { P with output := v }
  | .set_b0 v => { P with b0 := .value v }
  | .set_b1 v => { P with b1 := .value v }
  | .train =>
    match P.input, P.output with
    | some x, some y => { P with b0 := .fitted x y, b1 := .fitted x y }
    | _, _ => P

/-- What a user knows after a history of calls, on an object of which `P` is known. -/
def known (P : Known) (hist : List Call) : Known := hist.foldl knownBy P

/-- The first coefficient has the origin: it is the value set, or the one of the line of least squares (if the inputs are not all equal). -/
def IsB0 (h : Heap ℝ) (b : ℝ) : Origin → Prop
  | .value v => b = v
  | .fitted x y => ∀ (n : Nat) (u v : Fin n → ℝ), IsVec h x u → IsVec h y v → (∃ i j, u i ≠ u j) → ∃ b1, LeastSquares u v b b1

/-- The second coefficient has the origin. -/
def IsB1 (h : Heap ℝ) (b : ℝ) : Origin → Prop
  | .value v => b = v
  | .fitted x y => ∀ (n : Nat) (u v : Fin n → ℝ), IsVec h x u → IsVec h y v → (∃ i j, u i ≠ u j) → ∃ b0, LeastSquares u v b0 b

/-- What a call is given, on an object of which `P` is known: training, if there are inputs and outputs, has as many inputs as outputs. -/
def Admissible (h : Heap ℝ) (P : Known) : Call → Prop
  | .train => ∀ x y, P.input = some x → P.output = some y → ∃ (n : Nat) (u v : Fin n → ℝ), IsVec h x u ∧ IsVec h y v
  | _ => True

end
end Verif.Spec.UniLinRegLife
