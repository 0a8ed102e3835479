import Verif.Spec.Svc
import Verif.Model.SvcLife

/-! # Specification vocabulary for the life of a support vector classifier -/

namespace Verif.Spec.SvcLife
open Svc
noncomputable section
variable {n k : Nat}

/-- What a user knows of a classifier: the number `C`, the weights and bias, and the predictions that it shows for its data. -/
structure Known (n k : Nat) where
  c : ℝ
  θ : Params k
  shown : Fin n → ℝ

/-- What training does to what is known: the parameters are reached by the given number of steps, and the predictions shown are theirs. -/
def Trains (X : Matrix (Fin n) (Fin k) ℝ) (P Q : Known n k) (R : Nat → Params k → Params k → Prop) (steps : Nat) : Prop :=
  Q.c = P.c ∧ Chain R steps P.θ Q.θ ∧ Q.shown = fun i => signOf (linear X Q.θ i)

/-- What a call does to what is known of a classifier for the samples `X` with labels `y`.
`train_gradient_descent`: the weights go against a subgradient of `C` times the mean hinge loss and then lose the fraction `learning_rate / n`; the bias goes along the slope.
`train_sgd`: both go against a subgradient for the drawn sample, the weights then lose the fraction `learning_rate`.
`train_mbgd`: the weights lose the fraction `learning_rate / n` for every batch and epoch. The other setters and `initialize` are not described. -/
def Effect (X : Matrix (Fin n) (Fin k) ℝ) (y : Fin n → ℝ) (P : Known n k) (call : Call) (Q : Known n k) : Prop :=
  match call with
  | .set_c v => Q = { P with c := v }
  | .data_z_set _ => Q = P
  | .data_bias_set v => Q = { P with θ := (P.θ.1, v) }
  | .train_gradient_descent lr e =>
    Trains X P Q (fun _ θ θ' => (∃ g c, Subgradient (svmLoss P.c X y) θ g c ∧ ∀ j, θ'.1 j = (θ.1 j - lr * g j) - lr / n * (θ.1 j - lr * g j)) ∧
      θ'.2 = θ.2 + lr * P.c * (∑ i, if y i * signOf (linear X θ i) < 1 then - y i else 0) / n) (epochCount e)
  | .train_sgd pick lr e =>
    Trains X P Q (fun t θ θ' => ∃ i : Fin n, (i : Nat) = pick (t + 1) ∧
      SubgradStep (svmLoss P.c (sampleX X i) (sampleY y i)) lr (fun x => x - lr * x) θ θ') (epochCount e)
  | .train_mbgd lr e b => Q.c = P.c ∧ (∀ j, Q.θ.1 j = (1 - lr / n) ^ (epochCount e * (n / b.toNat)) * P.θ.1 j) ∧
      Q.shown = fun i => signOf (linear X Q.θ i)
  | _ => False

/-- What a history of calls does to what is known. -/
inductive Leads (X : Matrix (Fin n) (Fin k) ℝ) (y : Fin n → ℝ) : Known n k → List Call → Known n k → Prop where
  | nil (P) : Leads X y P [] P
  | cons {P Q R call hist} : Effect X y P call Q → Leads X y Q hist R → Leads X y P (call :: hist) R

/-- The calls that are described, and what they are given: a `C` that is not negative, rows that exist, batches that are not larger than the data. -/
def Admissible (n : Nat) : Call → Prop
  | .set_c v => 0 ≤ v
  | .data_z_set _ => True
  | .data_bias_set _ => True
  | .train_gradient_descent _ _ => True
  | .train_sgd pick _ _ => ∀ e, pick e < n
  | .train_mbgd _ _ b => 0 < b ∧ b ≤ n
  | _ => False

/-- The object answers 0 and null, and neither `initialize` nor any training changes it or anything else. -/
def Refuses (s : Obj) (h : Heap ℝ) : Prop :=
  get_output_set s = none ∧ ∀ (r : Ref) (pick : Nat → Nat) (gw gb : Utilities.Source) (lr : ℝ) (e b : Int),
    model_test s.glm r h = .ok (0, h) ∧ model_set_test s.glm r h = .ok (none, h) ∧ score s.glm h = .ok (0, h) ∧
    call s (.initialize_ gw gb) h = .ok (s, h) ∧ call s (.train_gradient_descent lr e) h = .ok (s, h) ∧ call s (.train_sgd pick lr e) h = .ok (s, h) ∧
    call s (.train_mbgd lr e b) h = .ok (s, h)

end
end Verif.Spec.SvcLife
