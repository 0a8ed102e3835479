import Verif.Spec.NaiveBayes
import Verif.Model.BernoulliNb

/-! # Specification vocabulary for the Bernoulli naive Bayes classifier -/

namespace Verif.Spec
noncomputable section
open Finset Classical
variable {n d p : Nat}

/-- The values that occur in the data. -/
def vocabulary (X : Matrix (Fin n) (Fin d) ℝ) : Finset ℝ := univ.image fun q : Fin n × Fin d => X q.1 q.2

/-- How often a value occurs in class `c`, per sample of the class. -/
def frequency (X : Matrix (Fin n) (Fin d) ℝ) (y : Fin n → ℝ) (c : Nat) (v : ℝ) : ℝ := (valuesIn X y c).count v / (members y c).length

/-- The frequency without its fractional part. -/
def share (X : Matrix (Fin n) (Fin d) ℝ) (y : Fin n → ℝ) (c : Nat) (v : ℝ) : ℝ := ⌊frequency X y c v⌋

/-- What a Bernoulli naive Bayes classifier compares when `θ c v` is the probability of the value `v` in class `c`: the probabilities of the known values
that `x` contains, and those that the other known values are absent, times the frequency of the class. -/
def bernoulliScore (θ : Nat → ℝ → ℝ) (X : Matrix (Fin n) (Fin d) ℝ) (y : Fin n → ℝ) (x : Fin p → ℝ) (c : Nat) : ℝ :=
  (∏ j, if x j ∈ vocabulary X then θ c (x j) else 1) * (∏ v ∈ (vocabulary X).filter fun v => ∀ j, x j ≠ v, (1 - θ c v)) * prior y c

/-- The class that the scores choose. -/
def chosen (s0 s1 : ℝ) : ℝ := if s0 > s1 then 0 else 1

/-- The class that the training assigns to a sample: class 1 also if a known value that is not in `x` occurs at least twice per sample of a class. -/
def assigned (X : Matrix (Fin n) (Fin d) ℝ) (y : Fin n → ℝ) (x : Fin p → ℝ) : ℝ :=
  if ∀ v ∈ vocabulary X, (∀ j, x j ≠ v) → share X y 0 v ≤ 1 ∧ share X y 1 v ≤ 1 then
    chosen (bernoulliScore (share X y) X y x 0) (bernoulliScore (share X y) X y x 1)
  else 1

/-- An object of `MLPPBernoulliNB` that was trained with the data `X`, `y`: it knows the values of the data, the frequency of both classes, and `share`
for every value in the data. -/
structure BernoulliFit (s : BernoulliNb) (h : Heap ℝ) (X : Matrix (Fin n) (Fin d) ℝ) (y : Fin n → ℝ) : Prop where
  wf : h.WF
  input_set : HasM h s.input_set X
  output_set : HasV h s.output_set y
  vocab : ∃ V : List ℝ, HasV h s.vocab V.get ∧ V.Nodup ∧ ∀ v, v ∈ V ↔ v ∈ vocabulary X
  theta : ∃ t0 t1, s.theta = [t0, t1] ∧ ∀ v ∈ vocabulary X, (v ∈ t0.keys ∧ v ∈ t1.keys) ∧ (t0.val v : ℝ) = share X y 0 v ∧ (t1.val v : ℝ) = share X y 1 v
  prior_0 : s.prior_0 = prior y 0
  prior_1 : s.prior_1 = prior y 1
  y_hat : HasV h s.y_hat fun i => assigned X y (X i)

end
end Verif.Spec
