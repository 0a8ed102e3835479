import Verif.Spec.Handle
import Verif.Model.Eigen

/-! # Specification vocabulary for eigenvalues and singular values -/

namespace Verif.Spec
variable {n m : Nat}

/-- The call comes to an end and returns two newly created `n × n` matrices, `D` and `V`, such that `Q D V`; no existing object is changed. -/
def GivesEigen (n : Nat) (c : M ℝ (Option Eigen.Result)) (h : Heap ℝ) (Q : Matrix (Fin n) (Fin n) ℝ → Matrix (Fin n) (Fin n) ℝ → Prop) : Prop :=
  Runs c h fun r h' => h'.WF ∧ Keeps h h' (fun _ => False) ∧ ∃ (e : Eigen.Result) (D V : Matrix (Fin n) (Fin n) ℝ), r = some e ∧
    NotIn h e.eigen_values ∧ NotIn h e.eigen_vectors ∧ e.eigen_values ≠ e.eigen_vectors ∧ HasM h' e.eigen_values D ∧ HasM h' e.eigen_vectors V ∧ Q D V

/-- The same, unless the iteration has not ended within the given number of rounds. -/
def MayGiveEigen (n : Nat) (c : M ℝ (Option Eigen.Result)) (h : Heap ℝ) (Q : Matrix (Fin n) (Fin n) ℝ → Matrix (Fin n) (Fin n) ℝ → Prop) :
    Prop :=
  Runs c h fun r h' => h'.WF ∧ Keeps h h' (fun _ => False) ∧ (r = none ∨ ∃ (e : Eigen.Result) (D V : Matrix (Fin n) (Fin n) ℝ), r = some e ∧
    NotIn h e.eigen_values ∧ NotIn h e.eigen_vectors ∧ e.eigen_values ≠ e.eigen_vectors ∧ HasM h' e.eigen_values D ∧ HasM h' e.eigen_vectors V ∧ Q D V)

/-- `D` is a diagonal matrix whose diagonal is in descending order. -/
def SortedDiagonal (D : Matrix (Fin n) (Fin n) ℝ) : Prop := (∀ i j, i ≠ j → D i j = 0) ∧ ∀ i j, i ≤ j → D j j ≤ D i i

/-- The columns of `V` are pairwise orthogonal unit vectors, column `j` being an eigenvector of `A` for the eigenvalue `D j j`. -/
def Diagonalizes (A D V : Matrix (Fin n) (Fin n) ℝ) : Prop := V.transpose * V = 1 ∧ A * V = V * D

/-- Every column of `V` has length 1. -/
def UnitColumns (V : Matrix (Fin n) (Fin n) ℝ) : Prop := ∀ j, ∑ i, V i j ^ 2 = 1

/-- The call comes to an end and returns three newly created matrices, `U` (`m × m`), `S` (`m × n`) and `Vt` (`n × n`), such that `Q U S Vt`; no
existing object is changed. -/
def GivesSvd (m n : Nat) (c : M ℝ (Option Eigen.SvdResult)) (h : Heap ℝ)
    (Q : Matrix (Fin m) (Fin m) ℝ → Matrix (Fin m) (Fin n) ℝ → Matrix (Fin n) (Fin n) ℝ → Prop) : Prop :=
  Runs c h fun r h' => h'.WF ∧ Keeps h h' (fun _ => False) ∧
    ∃ (e : Eigen.SvdResult) (U : Matrix (Fin m) (Fin m) ℝ) (S : Matrix (Fin m) (Fin n) ℝ) (V : Matrix (Fin n) (Fin n) ℝ), r = some e ∧
      NotIn h e.U ∧ NotIn h e.S ∧ NotIn h e.Vt ∧ HasM h' e.U U ∧ HasM h' e.S S ∧ HasM h' e.Vt V ∧ Q U S V

/-- The same, unless one of the two iterations has not ended within the given number of rounds. -/
def MayGiveSvd (m n : Nat) (c : M ℝ (Option Eigen.SvdResult)) (h : Heap ℝ)
    (Q : Matrix (Fin m) (Fin m) ℝ → Matrix (Fin m) (Fin n) ℝ → Matrix (Fin n) (Fin n) ℝ → Prop) : Prop :=
  Runs c h fun r h' => h'.WF ∧ Keeps h h' (fun _ => False) ∧ (r = none ∨
    ∃ (e : Eigen.SvdResult) (U : Matrix (Fin m) (Fin m) ℝ) (S : Matrix (Fin m) (Fin n) ℝ) (V : Matrix (Fin n) (Fin n) ℝ), r = some e ∧
      NotIn h e.U ∧ NotIn h e.S ∧ NotIn h e.Vt ∧ HasM h' e.U U ∧ HasM h' e.S S ∧ HasM h' e.Vt V ∧ Q U S V)

/-- `S` holds non-negative values in descending order on its diagonal and zeros elsewhere. -/
def SingularValues (S : Matrix (Fin m) (Fin n) ℝ) : Prop :=
  (∀ i j, 0 ≤ S i j) ∧ (∀ i j, i.val ≠ j.val → S i j = 0) ∧
    ∀ (i j : Nat) (hi : i < m) (hi' : i < n) (hj : j < m) (hj' : j < n), i ≤ j → S ⟨j, hj⟩ ⟨j, hj'⟩ ≤ S ⟨i, hi⟩ ⟨i, hi'⟩

end Verif.Spec
