import Verif.Spec.Handle
import Verif.Model.Pca
import Verif.Spec.Eigen

/-! # Specification vocabulary for principal component analysis -/

namespace Verif.Spec
variable {m n : Nat}

/-- The data with the mean of each row (variable) subtracted. -/
noncomputable def centred (A : Matrix (Fin m) (Fin n) ℝ) : Matrix (Fin m) (Fin n) ℝ := fun i j => A i j - (∑ l, A i l) / n

/-- The sum of the squares of the entries. -/
def sumSq (A : Matrix (Fin m) (Fin n) ℝ) : ℝ := ∑ i, ∑ j, A i j ^ 2

/-- `principal_components` applied to object `s`, whose data are `m × n`, comes to an end: for some directions, the columns of `P`, it returns the
coordinates of the centred data in them as a new matrix; the object holds the directions, the centred data and the result; no object
other than its matrix of directions is changed; and `Q P`. -/
def GivesPca (c : M ℝ (Option (Ref × Pca))) (h : Heap ℝ) (s : Pca) (A : Matrix (Fin m) (Fin n) ℝ) (Q : Matrix (Fin m) (Fin s.k) ℝ → Prop) : Prop :=
  Runs c h fun r h' => h'.WF ∧ Keeps h h' (some · = s.u_reduce) ∧ ∃ (x z : Ref) (P : Matrix (Fin m) (Fin s.k) ℝ),
    r = some (z, { s with x_normalized := x, z := z }) ∧ NotIn h x ∧ NotIn h z ∧ HasM h' x (centred A) ∧ HasM h' s.u_reduce P ∧
    HasM h' z (P.transpose * centred A) ∧ HasM h' s.input_set A ∧ Q P

/-- The same, unless the singular value decomposition has not ended within the given number of rounds. -/
def MayGivePca (c : M ℝ (Option (Ref × Pca))) (h : Heap ℝ) (s : Pca) (A : Matrix (Fin m) (Fin n) ℝ) (Q : Matrix (Fin m) (Fin s.k) ℝ → Prop) :
    Prop :=
  Runs c h fun r h' => h'.WF ∧ Keeps h h' (some · = s.u_reduce) ∧ (r = none ∨ ∃ (x z : Ref) (P : Matrix (Fin m) (Fin s.k) ℝ),
    r = some (z, { s with x_normalized := x, z := z }) ∧ NotIn h x ∧ NotIn h z ∧ HasM h' x (centred A) ∧ HasM h' s.u_reduce P ∧
    HasM h' z (P.transpose * centred A) ∧ HasM h' s.input_set A ∧ Q P)

end Verif.Spec
