import Verif.Model.GaussianNb
import Verif.Spec.Handle
import Verif.Spec.Stat
import Verif.Spec.Classification

/-! # Specification vocabulary for the naive Bayes classifiers -/

namespace Verif.Spec
noncomputable section
open Finset Classical
variable {n d : Nat}

/-- The density of the normal distribution at `x`. -/
def normalDensity (μ σ x : ℝ) : ℝ := 1 / Real.sqrt (2 * Real.pi * σ ^ 2) * Real.exp (-(x - μ) ^ 2 / (2 * σ ^ 2))

/-- The samples of class `c`. -/
def members (y : Fin n → ℝ) (c : Nat) : List (Fin n) := (List.finRange n).filter fun i => y i = c

/-- The fraction of the samples that belong to class `c`. -/
def prior (y : Fin n → ℝ) (c : Nat) : ℝ := (members y c).length / n

/-- The values of one feature in class `c`. -/
def featureIn (X : Matrix (Fin n) (Fin d) ℝ) (y : Fin n → ℝ) (c : Nat) (j : Fin d) : List ℝ := (members y c).map fun i => X i j

/-- What a Gaussian naive Bayes classifier compares: the frequency of a class times the densities of all features, each normally distributed in the class. -/
def gaussianScore (X : Matrix (Fin n) (Fin d) ℝ) (y : Fin n → ℝ) (x : Fin d → ℝ) (c : Nat) : ℝ :=
  prior y c * ∏ j, normalDensity (mean (featureIn X y c j)) (Real.sqrt (sampleVar (featureIn X y c j))) (x j)

/-- All values of class `c`, whatever the feature. -/
def valuesIn (X : Matrix (Fin n) (Fin d) ℝ) (y : Fin n → ℝ) (c : Nat) : List ℝ :=
  (List.ofFn fun i => if y i = c then List.ofFn (X i) else []).flatten

/-- An object of `MLPPGaussianNB` for `m` classes, trained with the data `X`, `y`. -/
structure GaussianFit (s : GaussianNb) (h : Heap ℝ) (X : Matrix (Fin n) (Fin d) ℝ) (y : Fin n → ℝ) (m : Nat) : Prop where
  wf : h.WF
  classes : s.class_num = m
  init : s.initialized = true
  input_set : HasM h s.input_set X
  output_set : HasV h s.output_set y
  mu : HasV h s.mu fun c : Fin m => mean (valuesIn X y c)
  sigma : HasV h s.sigma fun c : Fin m => Real.sqrt (sampleVar (valuesIn X y c))
  priors : HasV h s.priors fun _ : Fin m => 0
  y_hat : HasV h s.y_hat fun _ : Fin n => 0

end
end Verif.Spec
