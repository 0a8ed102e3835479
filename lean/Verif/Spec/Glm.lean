import Verif.Spec.Handle
import Verif.Spec.Cost
import Verif.Model.Glm
import Mathlib.Analysis.SpecialFunctions.Exp
import Mathlib.MeasureTheory.Integral.IntervalIntegral.Basic

/-! # Specification vocabulary for the linear models -/

namespace Verif.Spec
open Finset
noncomputable section
variable {n k : Nat}

/-- Weights and bias. -/
abbrev Params (k : Nat) := (Fin k → ℝ) × ℝ

/-- The linear function with weights and bias `θ`, on every row of `X`. -/
def linear (X : Matrix (Fin n) (Fin k) ℝ) (θ : Params k) : Fin n → ℝ := fun i => ∑ j, X i j * θ.1 j + θ.2

/-- The object is set up: its input set is the matrix `X`, its output set the vector `y`, its weights and bias are `θ`, and the vector of
the weights is not the output set. -/
structure Ready (s : Glm) (h : Heap ℝ) (X : Matrix (Fin n) (Fin k) ℝ) (y : Fin n → ℝ) (θ : Params k) : Prop where
  wf : h.WF
  rows : s.n = n
  cols : s.k = k
  input : HasM h s.input_set X
  output : HasV h s.output_set y
  weights : HasV h s.weights θ.1
  bias : s.bias = θ.2
  apart : s.output_set ≠ s.weights

/-- Everything the user has set is unchanged. -/
structure Same (s s' : Glm) : Prop where
  initialized : s'.initialized = s.initialized
  input_set : s'.input_set = s.input_set
  output_set : s'.output_set = s.output_set
  reg : s'.reg = s.reg
  lambda : s'.lambda = s.lambda
  alpha : s'.alpha = s.alpha
  n : s'.n = s.n
  k : s'.k = s.k

/-- After training: the object is set up with the same data and settings, the weights and bias are `θ`, the stored predictions are those of
`θ` with the link function `f`; of the objects that existed before, at most the old vector of weights has changed. -/
structure Trained (f : ℝ → ℝ) (s : Glm) (h : Heap ℝ) (s' : Glm) (h' : Heap ℝ) (X : Matrix (Fin n) (Fin k) ℝ) (y : Fin n → ℝ)
    (θ : Params k) : Prop where
  ready : Ready s' h' X y θ
  shown : HasV h' s'.y_hat fun i => f (linear X θ i)
  same : Same s s'
  frame : Keeps h h' (some · = s.weights)

/-- What the regularisation does to a weight after every step. -/
def decay (r : Reg.Kind) (lambda alpha x : ℝ) : ℝ :=
  match r with
  | .none => x
  | .ridge => x - lambda * x
  | .lasso => x - lambda * SignType.sign x
  | .elastic_net => x - (alpha * lambda * SignType.sign x + (1 - alpha) * lambda * x)
  | .weight_clipping => if alpha < x then alpha else if x < lambda then lambda else x

/-- One step of gradient descent on `L` with the given learning rate, followed by `D` on every weight. -/
def GradStep (L : Params k → ℝ) (learning_rate : ℝ) (D : ℝ → ℝ) (θ θ' : Params k) : Prop :=
  ∃ (g : Fin k → ℝ) (c : ℝ), Gradient (fun w => L (w, θ.2)) θ.1 g ∧ HasDerivAt (fun b => L (θ.1, b)) c θ.2 ∧
    θ' = (fun j => D (θ.1 j - learning_rate * g j), θ.2 - learning_rate * c)

/-- `b` is reached from `a` by `N` steps, the `i`-th one being in the relation `R i`. -/
def Chain {α : Type} (R : Nat → α → α → Prop) (N : Nat) (a b : α) : Prop :=
  ∃ x : Nat → α, x 0 = a ∧ x N = b ∧ ∀ i < N, R i (x i) (x (i + 1))

/-- Half the mean squared error of the predictions `f (w · x + b)`. -/
def sqLoss (f : ℝ → ℝ) (X : Matrix (Fin n) (Fin k) ℝ) (y : Fin n → ℝ) (θ : Params k) : ℝ := halfMse (fun i => f (linear X θ i)) y

/-- The logistic loss of the predictions `f (w · x + b)`. -/
def logisticLoss (f : ℝ → ℝ) (X : Matrix (Fin n) (Fin k) ℝ) (y : Fin n → ℝ) (θ : Params k) : ℝ :=
  logLoss 0 (fun i => f (linear X θ i)) y

/-- The number of epochs a training method runs. -/
def epochCount (max_epoch : Int) : Nat := max 1 max_epoch.toNat

end
end Verif.Spec

namespace Verif.Spec
open Finset
noncomputable section
variable {n k : Nat}

/-- The logistic function. -/
def logistic (z : ℝ) : ℝ := 1 / (1 + Real.exp (-z))
/-- The cumulative distribution function of the standard normal distribution. -/
def normalCdf (z : ℝ) : ℝ := 1 / 2 + 1 / Real.sqrt (2 * Real.pi) * ∫ t in (0 : ℝ)..z, Real.exp (-t ^ 2 / 2)
/-- The inverse of the complementary log-log function. -/
def cLogLog (z : ℝ) : ℝ := 1 - Real.exp (-Real.exp z)

/-- The square of the Euclidean distance of two parameter vectors. -/
def paramDist2 (θ θ' : Params k) : ℝ := ∑ j, (θ.1 j - θ'.1 j) ^ 2 + (θ.2 - θ'.2) ^ 2

/-- The sum of the squares of the entries of the data, a column of ones included. -/
def dataNorm2 (X : Matrix (Fin n) (Fin k) ℝ) : ℝ := ∑ i, (∑ j, X i j ^ 2 + 1)

/-- A step of Newton's method on `L` as a function of the weights, multiplied by `c` and followed by `D` on every weight, and a step of
gradient descent on `L` as a function of the bias: the direction `d` solves `H d = G`, with the gradient `G` and the second derivatives `H`. -/
def NewtonStep (L : Params k → ℝ) (c learning_rate : ℝ) (D : ℝ → ℝ) (θ θ' : Params k) : Prop :=
  ∃ (G : (Fin k → ℝ) → Fin k → ℝ) (H : Matrix (Fin k) (Fin k) ℝ) (d : Fin k → ℝ) (b : ℝ),
    (∀ w, Gradient (fun w => L (w, θ.2)) w (G w)) ∧ (∀ i, Gradient (fun w => G w i) θ.1 (H i)) ∧ H.mulVec d = G θ.1 ∧
    HasDerivAt (fun b => L (θ.1, b)) b θ.2 ∧ θ' = (fun j => D (θ.1 j - c * d j), θ.2 - learning_rate * b)

/-- The weights solve the normal equations `(Xᵀ X + ridge I) w = Xᵀ y`. -/
def NormalEq (X : Matrix (Fin n) (Fin k) ℝ) (y : Fin n → ℝ) (ridge : ℝ) (w : Fin k → ℝ) : Prop :=
  ∀ j, ∑ i, X i j * (∑ l, X i l * w l) + ridge * w j = ∑ i, X i j * y i

theorem batchRow_lt (n K : Nat) (i : Fin K) (j : Fin (n / K)) : n / K * i.val + j.val < n := by
  have h1 : n / K * i.val + n / K ≤ n / K * K := by rw [← Nat.mul_succ]; exact Nat.mul_le_mul_left _ i.2
  have h2 := Nat.div_mul_le_self n K
  have := j.2
  omega

/-- The inputs of mini-batch `i` of `K`: consecutive rows, `n / K` of them. -/
def batchX (X : Matrix (Fin n) (Fin k) ℝ) (K : Nat) (i : Fin K) : Matrix (Fin (n / K)) (Fin k) ℝ := fun j => X ⟨n / K * i + j, batchRow_lt n K i j⟩
/-- The outputs that belong to mini-batch `i` of `K`. -/
def batchY (y : Fin n → ℝ) (K : Nat) (i : Fin K) : Fin (n / K) → ℝ := fun j => y ⟨n / K * i + j, batchRow_lt n K i j⟩
/-- The first `n / K` outputs. -/
def firstY (y : Fin n → ℝ) (K : Nat) : Fin (n / K) → ℝ := fun j => y ⟨j, j.2.trans_le (Nat.div_le_self n K)⟩

/-- The steps of mini-batch training: the batches in order, again and again. `epoch` counts from 1. -/
def Rounds {α : Type} {K : Nat} (hK : 0 < K) (R : Nat → Fin K → α → α → Prop) (epochs : Nat) : α → α → Prop :=
  Chain (fun t => R (t / K + 1) ⟨t % K, Nat.mod_lt _ hK⟩) (epochs * K)

end
end Verif.Spec

namespace Verif.Spec
variable {n k : Nat}

/-- The inputs of sample `i` alone. -/
def sampleX (X : Matrix (Fin n) (Fin k) ℝ) (i : Fin n) : Matrix (Fin 1) (Fin k) ℝ := fun _ => X i
/-- The output of sample `i` alone. -/
def sampleY (y : Fin n → ℝ) (i : Fin n) : Fin 1 → ℝ := fun _ => y i

end Verif.Spec

namespace Verif.Spec
open Finset
noncomputable section
variable {n k : Nat} {τ : Type}

/-- What the regularisation adds to the derivative of the loss by a weight. -/
def penaltySlope (r : Reg.Kind) (lambda alpha x : ℝ) : ℝ :=
  match r with
  | .ridge => lambda * x
  | .lasso => lambda * SignType.sign x
  | .elastic_net => alpha * lambda * SignType.sign x + (1 - alpha) * lambda * x
  | _ => 0

/-- A step of an adaptive method on `L`. The state is `t`; the weights are first moved by `look`; `rule` takes the gradient there, with the
slope of the regularisation added, and the state, and gives the new state and what is subtracted from the weights. The bias takes a plain
step of gradient descent. -/
def AdaptiveStep (L : Params k → ℝ) (slope : ℝ → ℝ) (look : τ → Fin k → ℝ) (rule : (Fin k → ℝ) → τ → τ × (Fin k → ℝ)) (learning_rate : ℝ)
    (a b : τ × Params k) : Prop :=
  ∃ (g : Fin k → ℝ) (c : ℝ), Gradient (fun w => L (w, a.2.2)) (a.2.1 - look a.1) g ∧
    HasDerivAt (fun b => L (a.2.1 - look a.1, b)) c a.2.2 ∧
    b = ((rule (fun j => g j + slope ((a.2.1 - look a.1) j)) a.1).1,
      (a.2.1 - look a.1 - (rule (fun j => g j + slope ((a.2.1 - look a.1) j)) a.1).2, a.2.2 - learning_rate * c))

/-- Momentum: `v ← γ v + η g`, and `v` is subtracted. -/
def momentumRule (gamma learning_rate : ℝ) (g v : Fin k → ℝ) : (Fin k → ℝ) × (Fin k → ℝ) :=
  (fun j => gamma * v j + learning_rate * g j, fun j => gamma * v j + learning_rate * g j)

/-- The `adagrad` of the library: `v ← g²`, and `η g / √(v + ε)` is subtracted. -/
def adagradRule (e learning_rate : ℝ) (g _v : Fin k → ℝ) : (Fin k → ℝ) × (Fin k → ℝ) :=
  (fun j => g j ^ 2, fun j => learning_rate * (g j / Real.sqrt (g j ^ 2 + e)))

/-- The `adadelta` of the library (elsewhere called RMSProp): `v ← β v + (1 - β) g²`, and `η g / √(v + ε)` is subtracted. -/
def adadeltaRule (b1 e learning_rate : ℝ) (g v : Fin k → ℝ) : (Fin k → ℝ) × (Fin k → ℝ) :=
  (fun j => b1 * v j + (1 - b1) * g j ^ 2, fun j => learning_rate * (g j / Real.sqrt (b1 * v j + (1 - b1) * g j ^ 2 + e)))

/-- Adam in epoch `t`: `m ← β₁ m + (1 - β₁) g`, `v ← β₂ v + (1 - β₂) g²`, and `η m̂ / (√v̂ + ε)` is subtracted, with `m̂ = m / (1 - β₁ᵗ)` and
`v̂ = v / (1 - β₂ᵗ)`. -/
def adamRule (b1 b2 e learning_rate : ℝ) (t : Nat) (g : Fin k → ℝ) (s : (Fin k → ℝ) × (Fin k → ℝ)) :
    ((Fin k → ℝ) × (Fin k → ℝ)) × (Fin k → ℝ) :=
  ((fun j => b1 * s.1 j + (1 - b1) * g j, fun j => b2 * s.2 j + (1 - b2) * g j ^ 2), fun j =>
    learning_rate * ((b1 * s.1 j + (1 - b1) * g j) / (1 - b1 ^ t) / (Real.sqrt ((b2 * s.2 j + (1 - b2) * g j ^ 2) / (1 - b2 ^ t)) + e)))

/-- Adamax in epoch `t`: `u ← max (β₂ u) |g|`, and `η m̂ / u` is subtracted. -/
def adamaxRule (b1 b2 learning_rate : ℝ) (t : Nat) (g : Fin k → ℝ) (s : (Fin k → ℝ) × (Fin k → ℝ)) :
    ((Fin k → ℝ) × (Fin k → ℝ)) × (Fin k → ℝ) :=
  ((fun j => b1 * s.1 j + (1 - b1) * g j, fun j => max (b2 * s.2 j) |g j|), fun j =>
    learning_rate * ((b1 * s.1 j + (1 - b1) * g j) / (1 - b1 ^ t) / max (b2 * s.2 j) |g j|))

/-- The `nadam` of the library in epoch `t`: as Adam, but with `β₁ m + (1 - β₁) / (1 - β₁ᵗ) g` in place of `m̂`. -/
def nadamRule (b1 b2 e learning_rate : ℝ) (t : Nat) (g : Fin k → ℝ) (s : (Fin k → ℝ) × (Fin k → ℝ)) :
    ((Fin k → ℝ) × (Fin k → ℝ)) × (Fin k → ℝ) :=
  ((fun j => b1 * s.1 j + (1 - b1) * g j, fun j => b2 * s.2 j + (1 - b2) * g j ^ 2), fun j =>
    learning_rate * ((b1 * (b1 * s.1 j + (1 - b1) * g j) + (1 - b1) / (1 - b1 ^ t) * g j) /
      (Real.sqrt ((b2 * s.2 j + (1 - b2) * g j ^ 2) / (1 - b2 ^ t)) + e)))

end
end Verif.Spec
