import Verif.Spec.Handle
import Verif.Model.KMeans

/-! # Specification vocabulary for k-means clustering -/

namespace Verif.Spec
noncomputable section
variable {n d k : Nat}

/-- The square of the Euclidean distance. -/
def sqDist (u v : Fin d → ℝ) : ℝ := ∑ i, (u i - v i) ^ 2

/-- `j` is the first of the centroids `C` closest to `x`. -/
def FirstNearest (C : Matrix (Fin k) (Fin d) ℝ) (x : Fin d → ℝ) (j : Fin k) : Prop :=
  (∀ l, sqDist x (C j) ≤ sqDist x (C l)) ∧ ∀ l, l < j → sqDist x (C j) < sqDist x (C l)

/-- The object holds the data `X`, centroids `C` and memberships `R`, in three different matrices. -/
structure KReady {p q a b : Nat} (h : Heap ℝ) (s : KMeans) (X : Matrix (Fin n) (Fin d) ℝ) (C : Matrix (Fin p) (Fin q) ℝ)
    (R : Matrix (Fin a) (Fin b) ℝ) : Prop where
  wf : h.WF
  data : HasM h s.input_set X
  mu : HasM h s.mu C
  r : HasM h s.r R
  data_mu : s.input_set ≠ s.mu
  data_r : s.input_set ≠ s.r
  mu_r : s.mu ≠ s.r

/-- The memberships `R` put every point `i` into the cluster `c i` and no other. -/
def Members (R : Matrix (Fin n) (Fin k) ℝ) (c : Fin n → Fin k) : Prop := ∀ i j, R i j = if j = c i then 1 else 0

/-- The cluster of the point before `i`; `z` when there is none. -/
def before (c : Fin n → Fin k) (z : Fin k) (i : Fin n) : Fin k := if e : i.val = 0 then z else c ⟨i.val - 1, by omega⟩

/-- A point whose (first) nearest centroid is not the first one belongs to its nearest centroid; a point whose nearest centroid is the first one
belongs where the point before it belongs. -/
def Carried (X : Matrix (Fin n) (Fin d) ℝ) (C : Matrix (Fin k) (Fin d) ℝ) (c : Fin n → Fin k) : Prop :=
  ∀ (i : Fin n) (j : Fin k), FirstNearest C (X i) j → c i = if j.val = 0 then before c j i else j

/-- The number of points in cluster `j`. -/
def count (c : Fin n → Fin k) (j : Fin k) : ℕ := (Finset.univ.filter fun i => c i = j).card

/-- The centroids of clusters that have points are the means of these points. -/
def Means (X : Matrix (Fin n) (Fin d) ℝ) (c : Fin n → Fin k) (C : Matrix (Fin k) (Fin d) ℝ) : Prop :=
  ∀ j, 0 < count c j → ∀ q, C j q = (∑ i with c i = j, X i q) / count c j

/-- The sum of the squared distances of the points to the centroids of their clusters. -/
def clusterCost (X : Matrix (Fin n) (Fin d) ℝ) (C : Matrix (Fin k) (Fin d) ℝ) (c : Fin n → Fin k) : ℝ := ∑ i, sqDist (X i) (C (c i))

/-- `e` turns from the centroids `C 0` to the centroids `C e`: in each the points are assigned (`Carried`) and the centroids are moved to the means
(`Means`); the last assignment is `c e`. -/
def LloydRun (X : Matrix (Fin n) (Fin d) ℝ) (C : ℕ → Matrix (Fin k) (Fin d) ℝ) (c : ℕ → Fin n → Fin k) (e : ℕ) : Prop :=
  (∀ t ≤ e, Carried X (C t) (c t)) ∧ ∀ t < e, Means X (c t) (C (t + 1))

/-- The point differs from one of the first `i` centroids. -/
def Apart (C : Matrix (Fin k) (Fin d) ℝ) (i : Nat) (x : Fin d → ℝ) : Prop := ∃ l : Fin k, l.val < i ∧ x ≠ C l

/-- The centroid `i` is the last point that differs from one of the centroids before it. -/
def Chosen (X : Matrix (Fin n) (Fin d) ℝ) (C : Matrix (Fin k) (Fin d) ℝ) (i : Fin k) : Prop :=
  ∃ a : Fin n, C i = X a ∧ Apart C i (X a) ∧ ∀ b : Fin n, a < b → ¬ Apart C i (X b)

end
end Verif.Spec
