import Mathlib.Data.Real.Basic
import Mathlib.Algebra.BigOperators.Group.List.Basic

/-! # Specification vocabulary for statistics: textbook definitions on lists of real numbers -/

namespace Verif.Spec

/-- The arithmetic mean. -/
noncomputable def mean (l : List ℝ) : ℝ := l.sum / l.length

/-- The sample covariance (divisor `n - 1`). -/
noncomputable def sampleCov (a b : List ℝ) : ℝ :=
  (List.zipWith (fun x y => (x - mean a) * (y - mean b)) a b).sum / (a.length - 1)

/-- The sample variance. -/
noncomputable def sampleVar (a : List ℝ) : ℝ := (a.map fun x => (x - mean a) ^ 2).sum / (a.length - 1)

/-- At least half of the elements are `≤ m` and at least half are `≥ m`. -/
def IsMedian {R : Type} [LE R] [DecidableLE R] (l : List R) (m : R) : Prop :=
  l.length ≤ 2 * (l.countP fun x => decide (x ≤ m)) ∧ l.length ≤ 2 * (l.countP fun x => decide (m ≤ x))

/-- The sum of the squared residuals of the line `b0 + b1 x`. -/
def residuals (b0 b1 : ℝ) (x y : List ℝ) : ℝ := (List.zipWith (fun x y => (y - (b0 + b1 * x)) ^ 2) x y).sum

/-- `v` lies between the smallest and the largest element of the list. -/
def Between (l : List ℝ) (v : ℝ) : Prop := ∀ lo hi, (∀ a ∈ l, lo ≤ a ∧ a ≤ hi) → lo ≤ v ∧ v ≤ hi

end Verif.Spec
