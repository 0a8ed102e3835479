import Verif.Spec.KMeans

/-! # Specification vocabulary for silhouette scores -/

namespace Verif.Spec
noncomputable section
open Classical
variable {n d k : Nat}

/-- Every coordinate is equal, or differs by less than the tolerance. -/
def Close (tol : ℝ) (u v : Fin d → ℝ) : Prop := ∀ q, u q = v q ∨ |u q - v q| < tol

/-- The Euclidean distance. -/
def straight (u v : Fin d → ℝ) : ℝ := Real.sqrt (sqDist u v)

/-- The sum of the distances from point `i` to the other points of its cluster. -/
def ownSum (X : Matrix (Fin n) (Fin d) ℝ) (c : Fin n → Fin k) (i : Fin n) : ℝ := ∑ j with j ≠ i ∧ c j = c i, straight (X i) (X j)

/-- The sum of the distances from point `i` to all points. -/
def allSum (X : Matrix (Fin n) (Fin d) ℝ) (i : Fin n) : ℝ := ∑ j, straight (X i) (X j)

/-- The number of points that coincide with the vector `v`. -/
def coincide (tol : ℝ) (X : Matrix (Fin n) (Fin d) ℝ) (v : Fin d → ℝ) : ℕ := (Finset.univ.filter fun l => Close tol (X l) v).card

/-- The centroid `j` counts for a point whose closest centroid is `v`: it is another centroid, and a point of the data. -/
def Counts (tol : ℝ) (X : Matrix (Fin n) (Fin d) ℝ) (C : Matrix (Fin k) (Fin d) ℝ) (v : Fin d → ℝ) (j : Fin k) : Prop :=
  ¬ Close tol v (C j) ∧ coincide tol X (C j) ≠ 0

/-- The mean distance from point `i` to the other points of its cluster, the `a` of its silhouette. -/
def ownMean (X : Matrix (Fin n) (Fin d) ℝ) (c : Fin n → Fin k) (i : Fin n) : ℝ := ownSum X c i / ((count c (c i) : ℝ) - 1)

/-- The mean distance from point `i` to the points of cluster `j`. -/
def meanTo (X : Matrix (Fin n) (Fin d) ℝ) (c : Fin n → Fin k) (i : Fin n) (j : Fin k) : ℝ :=
  (∑ l with c l = j, straight (X i) (X l)) / count c j

/-- `x` is the silhouette of point `i`: `(b - a) / max a b`, where `a` is the mean distance to the other points of its cluster and `b` the smallest
mean distance to the points of another cluster that is not empty. -/
def IsSilhouette (X : Matrix (Fin n) (Fin d) ℝ) (c : Fin n → Fin k) (i : Fin n) (x : ℝ) : Prop :=
  ∃ b, IsLeast {y | ∃ j, j ≠ c i ∧ 0 < count c j ∧ y = meanTo X c i j} b ∧ x = (b - ownMean X c i) / max (ownMean X c i) b

end
end Verif.Spec
