import Verif.Lemmas.GramSchmidt
import Verif.Lemmas.Cholesky
import Verif.Lemmas.Example
import Mathlib.LinearAlgebra.Matrix.Notation
import Mathlib.Analysis.Matrix.PosDef

/-!
# C53, C54: the matrix factorisations of `MLPPLinAlg`
-/

namespace Verif
open Spec LinAlg
variable {R : Type} {m n : Nat}

/-! ## C53 -/

/-- **C53**, `gram_schmidt_process(A)` of an `m × n` matrix (`n ≥ 1`) with linearly independent columns returns a new `m × n` matrix
`Q` with orthonormal columns; column `j` of `A` is a combination of the first `j + 1` columns of `Q`, with a positive last
coefficient. -/
theorem C53_gram_schmidt (h : Heap ℝ) (w : h.WF) (a : Nat) (A : Matrix (Fin m) (Fin n) ℝ) (hA : IsMat h a A) (la : h.live (.m a))
    (hn : 0 < n) (li : LinearIndependent ℝ fun j : Fin n => fun i : Fin m => A i j) :
    ∃ (Q : Matrix (Fin m) (Fin n) ℝ) (U : Matrix (Fin n) (Fin n) ℝ), ReturnsMat (gram_schmidt_process (some (.m a))) h Q ∧
      Q.transpose * Q = 1 ∧ A = Q * U ∧ (∀ i j, j < i → U i j = 0) ∧ ∀ i, 0 < U i i := by
  obtain ⟨r, h', e, o, Q, rfl, f, l, w', k, hQ, q1, q2, q3, q4⟩ := runs_iff.mp (gram_schmidt_spec w hA la hn li)
  exact ⟨Q, Q.transpose * A, Runs.of_eq e ⟨o, rfl, f, l, w', k, hQ⟩, q1, q2.symm, q3, q4⟩

/-- **C53**, `qrd(A)` of an `m × n` matrix (`n ≥ 1`) with linearly independent columns returns two new matrices: `Q` with orthonormal
columns and `U` upper triangular with a positive diagonal, such that `A = Q U`. -/
theorem C53_qrd (h : Heap ℝ) (w : h.WF) (a : Nat) (A : Matrix (Fin m) (Fin n) ℝ) (hA : IsMat h a A) (la : h.live (.m a))
    (hn : 0 < n) (li : LinearIndependent ℝ fun j : Fin n => fun i : Fin m => A i j) :
    Runs (qrd (some (.m a))) h fun r h' => ∃ q t Q U, r = (some (.m q), some (.m t)) ∧ ¬ h.live (.m q) ∧ ¬ h.live (.m t) ∧ q ≠ t ∧
      h'.WF ∧ Keeps h h' (fun _ => False) ∧ IsMat h' q (Q : Matrix (Fin m) (Fin n) ℝ) ∧ IsMat h' t (U : Matrix (Fin n) (Fin n) ℝ) ∧
      Q.transpose * Q = 1 ∧ Q * U = A ∧ (∀ i j : Fin n, j < i → U i j = 0) ∧ ∀ i : Fin n, 0 < U i i := qrd_spec w hA la hn li

/-- The hypotheses of C53 are met by a 3 × 2 matrix. -/
example : ∃ (h : Heap ℝ) (A : Matrix (Fin 3) (Fin 2) ℝ), h.WF ∧ h.live (.m 0) ∧ IsMat h 0 A ∧
    LinearIndependent ℝ fun j : Fin 2 => fun i : Fin 3 => A i j := by
  refine ⟨Heap.ofLists 0 [] [(2, 3, [1, 2, 3, 4, 5, 6])], !![1, 2; 3, 4; 5, 6], Heap.ofLists_wf _ _ _ (by simp),
    by simp [Heap.ofLists, Heap.live, Loc.id], ⟨rfl, by intro i j; fin_cases i <;> fin_cases j <;> rfl⟩, ?_⟩
  rw [Fintype.linearIndependent_iff]
  intro g e
  have e0 := congrFun e 0
  have e1 := congrFun e 1
  simp [Fin.sum_univ_two] at e0 e1
  intro i
  fin_cases i
  · show g 0 = 0
    linarith
  · show g 1 = 0
    linarith

/-! ## C54 -/

/-- **C54**, `cholesky(A)` of a positive definite matrix returns two new matrices, `L` and its transpose: `L` is lower triangular with
a positive diagonal and `A = L Lᵀ`. -/
theorem C54_cholesky (h : Heap ℝ) (w : h.WF) (a : Nat) (A : Matrix (Fin n) (Fin n) ℝ) (hA : IsMat h a A) (la : h.live (.m a))
    (pd : A.PosDef) : Runs (cholesky (some (.m a))) h fun r h' => ∃ l t L, r = (some (.m l), some (.m t)) ∧
      ¬ h.live (.m l) ∧ ¬ h.live (.m t) ∧ l ≠ t ∧ h'.WF ∧ Keeps h h' (fun _ => False) ∧ IsMat h' l L ∧ IsMat h' t L.transpose ∧
      L * L.transpose = A ∧ (∀ i j : Fin n, i < j → L i j = 0) ∧ ∀ i : Fin n, 0 < L i i := cholesky_spec w hA la pd

/-- **C54**, `cholesky(A)` of a matrix that is not square: two null handles, nothing changes. -/
theorem C54_cholesky_rejects (h : Heap ℝ) (a : Nat) (A : Matrix (Fin m) (Fin n) ℝ) (hA : IsMat h a A) (q : m ≠ n) :
    cholesky (some (.m a)) h = .ok ((none, none), h) := by
  unfold cholesky
  rw [bind_ok (derefM_run a h), bind_ok (Mat.size_run a h), hA.1, if_neg (show ¬ n = m from fun e => q e.symm)]; rfl

/-- The hypotheses of C54 are met by a 2 × 2 matrix. -/
example : ∃ (h : Heap ℝ) (A : Matrix (Fin 2) (Fin 2) ℝ), h.WF ∧ h.live (.m 0) ∧ IsMat h 0 A ∧ A.PosDef := by
  refine ⟨Heap.ofLists 0 [] [(2, 2, [4, 2, 2, 3])], !![4, 2; 2, 3], Heap.ofLists_wf _ _ _ (by simp),
    by simp [Heap.ofLists, Heap.live, Loc.id], ⟨rfl, by intro i j; fin_cases i <;> fin_cases j <;> rfl⟩, ?_⟩
  refine Matrix.PosDef.of_dotProduct_mulVec_pos ?_ ?_
  · ext i j; fin_cases i <;> fin_cases j <;> simp
  · intro x hx
    have : (star x ⬝ᵥ (!![4, 2; 2, 3] : Matrix (Fin 2) (Fin 2) ℝ).mulVec x) = (2 * x 0 + x 1) ^ 2 + 2 * x 1 ^ 2 := by
      simp [Matrix.mulVec, dotProduct, Fin.sum_univ_two]; ring
    rw [this]
    by_cases h1 : x 1 = 0
    · have h0 : x 0 ≠ 0 := fun h0 => hx (by ext i; fin_cases i <;> simp [h0, h1])
      have := sq_pos_of_ne_zero h0
      rw [h1]; nlinarith
    · have := sq_pos_of_ne_zero h1
      nlinarith [sq_nonneg (2 * x 0 + x 1)]

end Verif
