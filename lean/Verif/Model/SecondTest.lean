import Verif.Model.Eigen
import Verif.Model.NumAnalysis

/-! # The second derivative test for other than two variables (core/numerical_analysis.cpp) -/

namespace Verif.NumAnalysis

/-- The branch of `second_partial_derivative_test(function, x)` for other than two variables, numerical_analysis.cpp:381-391. The three
checks need not end; `none` if one has not ended within `fuel` rounds. -/
noncomputable def testByEigenvalues (fuel : Nat) (hessian_matrix : Nat) : M ℝ (Option String) := do
  let p ← LinAlg.positive_definite_checker fuel (some (.m hessian_matrix))
  match p with
  | none => pure none
  | some true => pure (some "min")
  | some false => do
    let n ← LinAlg.negative_definite_checker fuel (some (.m hessian_matrix))
    match n with
    | none => pure none
    | some true => pure (some "max")
    | some false => do
      let z ← LinAlg.zero_eigenvalue fuel (some (.m hessian_matrix))
      match z with
      | none => pure none
      | some false => pure (some "saddle")
      | some true => pure (some "test was inconclusive")

/-- The branch as an argument of `second_partial_derivative_test` (Model/NumAnalysis.lean); the answer is empty if the branch has not come to an
end within `fuel` rounds. -/
noncomputable def eigenBranch (fuel : Nat) (hessian_matrix : Nat) : M ℝ String := do
  let r ← testByEigenvalues fuel hessian_matrix
  pure (r.getD "")

end Verif.NumAnalysis
