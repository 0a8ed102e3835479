import Verif.Spec.Glm
import Verif.Model.TanhLife

/-! # Specification vocabulary for the life of a tanh regression -/

namespace Verif.Spec.TanhLife
open TanhReg
noncomputable section
variable {n k : Nat}

/-- What a user knows of a regression: the settings, the weights and bias, and the predictions that it shows for its data. -/
structure Known (n k : Nat) where
  reg : Reg.Kind
  lambda : ℝ
  alpha : ℝ
  θ : Params k
  shown : Fin n → ℝ

/-- What training does to what is known: the settings stay, the parameters are reached by the given number of steps, and the predictions shown are theirs. -/
def Trains (X : Matrix (Fin n) (Fin k) ℝ) (P Q : Known n k) (R : Nat → Params k → Params k → Prop) (steps : Nat) : Prop :=
  Q.reg = P.reg ∧ Q.lambda = P.lambda ∧ Q.alpha = P.alpha ∧ Chain R steps P.θ Q.θ ∧ Q.shown = fun i => Real.tanh (linear X Q.θ i)

/-- What a call does to what is known of a regression for the samples `X` with outputs `y`.
`train_gradient_descent`: every epoch is a step along the gradient of half the mean squared error, followed by the regularisation.
`train_sgd`: the weights are only regularised, whatever the data; the bias goes along the slope for the drawn sample.
The other setters, `initialize` and `train_mbgd` are not described. -/
def Effect (X : Matrix (Fin n) (Fin k) ℝ) (y : Fin n → ℝ) (P : Known n k) (call : Call) (Q : Known n k) : Prop :=
  match call with
  | .set_reg v => Q = { P with reg := v }
  | .set_lambda v => Q = { P with lambda := v }
  | .set_alpha v => Q = { P with alpha := v }
  | .data_z_set _ => Q = P
  | .data_bias_set v => Q = { P with θ := (P.θ.1, v) }
  | .train_gradient_descent lr e => Trains X P Q (fun _ => GradStep (sqLoss Real.tanh X y) lr (decay P.reg P.lambda P.alpha)) (epochCount e)
  | .train_sgd pick lr e => Trains X P Q (fun t θ θ' => ∃ (i : Fin n) (c : ℝ), (i : Nat) = pick (t + 1) ∧
      HasDerivAt (fun b => sqLoss Real.tanh (sampleX X i) (sampleY y i) (θ.1, b)) c θ.2 ∧
      θ' = (fun j => decay P.reg P.lambda P.alpha (θ.1 j), θ.2 - lr * c)) (epochCount e)
  | _ => False

/-- What a history of calls does to what is known. -/
inductive Leads (X : Matrix (Fin n) (Fin k) ℝ) (y : Fin n → ℝ) : Known n k → List Call → Known n k → Prop where
  | nil (P) : Leads X y P [] P
  | cons {P Q R call hist} : Effect X y P call Q → Leads X y Q hist R → Leads X y P (call :: hist) R

/-- The calls that are described; the rows drawn exist. -/
def Admissible (n : Nat) : Call → Prop
  | .set_reg _ | .set_lambda _ | .set_alpha _ | .data_z_set _ | .data_bias_set _ | .train_gradient_descent _ _ => True
  | .train_sgd pick _ _ => ∀ e, pick e < n
  | _ => False

/-- The object answers 0 and null, and neither `initialize` nor any training changes it or anything else. -/
def Refuses (s : Glm) (h : Heap ℝ) : Prop :=
  TanhReg.get_output_set s = none ∧ ∀ (r : Ref) (pick : Nat → Nat) (gw gb : Utilities.Source) (lr : ℝ) (e b : Int),
    model_test s r h = .ok (0, h) ∧ model_set_test s r h = .ok (none, h) ∧ score s h = .ok (0, h) ∧
    call s (.initialize_ gw gb) h = .ok (s, h) ∧ call s (.train_gradient_descent lr e) h = .ok (s, h) ∧ call s (.train_sgd pick lr e) h = .ok (s, h) ∧
    call s (.train_mbgd lr e b) h = .ok (s, h)

end
end Verif.Spec.TanhLife
