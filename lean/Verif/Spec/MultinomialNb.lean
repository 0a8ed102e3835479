import Verif.Spec.NaiveBayes
import Verif.Model.MultinomialNb

/-! # Specification vocabulary for the multinomial naive Bayes classifier -/

namespace Verif.Spec
noncomputable section
variable {n d : Nat}

/-- An object of `MLPPMultinomialNB` for `m` classes, trained with the data `X`, `y`. Its vocabulary is empty. Its priors are not the frequencies of the
classes: every one of the `n` passes over the data adds the counts to the previous values and divides by `n`; `v` is what the memory contained at first. -/
structure MultinomialFit (s : MultinomialNb) (h : Heap ℝ) (X : Matrix (Fin n) (Fin d) ℝ) (y : Fin n → ℝ) (m : Nat) : Prop where
  wf : h.WF
  classes : s.class_num = m
  init : s.initialized = true
  input_set : HasM h s.input_set X
  output_set : HasV h s.output_set y
  vocab : HasV h s.vocab (Fin.elim0 : Fin 0 → ℝ)
  priors : ∃ v : Fin m → ℝ, HasV h s.priors fun c => v c / (n : ℝ) ^ n + (members y c).length * ∑ k ∈ Finset.range n, 1 / (n : ℝ) ^ (k + 1)
  y_hat : ∃ u : Fin n → ℝ, HasV h s.y_hat u ∧ ∀ i, ∃ c < m, u i = (c : ℝ)

end
end Verif.Spec
