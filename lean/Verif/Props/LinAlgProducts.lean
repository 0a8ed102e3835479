import Verif.Lemmas.LinAlgMatrix
import Verif.Props.MatrixAlgebra
import Mathlib.LinearAlgebra.Matrix.Rank
import Mathlib.LinearAlgebra.Matrix.NonsingularInverse
import Mathlib.LinearAlgebra.Matrix.DotProduct
import Mathlib.Analysis.RCLike.Basic

/-!
# C51, C52: the matrix functions of `MLPPLinAlg`
-/

namespace Verif
open Spec LinAlg
variable {R : Type} {m n p q : Nat}

/-! ## C51 -/

/-- **C51**, `matmultnm(A, B)` is the matrix product, `transposenm(A)` the transpose and `gram_matrix(A)` is `AᵀA`. -/
theorem C51_products [NonUnitalNonAssocSemiring R] (h : Heap R) (w : h.WF) (a b : Nat) (A : Matrix (Fin m) (Fin n) R)
    (B : Matrix (Fin n) (Fin p) R) (hA : IsMat h a A) (hB : IsMat h b B) (la : h.live (.m a)) (lb : h.live (.m b)) :
    ReturnsMat (matmultnm (some (.m a)) (some (.m b))) h (A * B) ∧ ReturnsMat (transposenm (some (.m a))) h A.transpose ∧
    ReturnsMat (gram_matrix (some (.m a))) h (A.transpose * A) :=
  ⟨matmultnm_spec w hA hB la lb, transposenm_spec w hA la, gram_matrix_spec w hA la⟩

/-- **C51**, `matmultnm` rejects null operands and operands whose inner extents differ: nothing changes, null is returned. -/
theorem C51_matmult_rejects [NonUnitalNonAssocSemiring R] (h : Heap R) (a b : Nat) (A B : Ref) :
    matmultnm none B h = .ok (none, h) ∧ matmultnm A none h = .ok (none, h) ∧
    ((h.size (.m a)).x ≠ (h.size (.m b)).y → matmultnm (some (.m a)) (some (.m b)) h = .ok (none, h)) := by
  refine ⟨rfl, ?_, fun q => ?_⟩
  · match A with
    | none => rfl
    | some (.v _) => rfl
    | some (.m _) => rfl
    | some (.t _) => rfl
  · unfold matmultnm
    dsimp only [Ref.mat?]
    rw [bind_ok (Mat.size_run a h), bind_ok (Mat.size_run b h), if_neg q]; rfl

/-- **C51**, `kronecker_productnm` is the Kronecker product. -/
theorem C51_kronecker [CommMagma R] (h : Heap R) (w : h.WF) (a b : Nat) (A : Matrix (Fin m) (Fin n) R)
    (B : Matrix (Fin p) (Fin q) R) (hA : IsMat h a A) (hB : IsMat h b B) (la : h.live (.m a)) (lb : h.live (.m b)) :
    ReturnsMat (kronecker_productnm (some (.m a)) (some (.m b))) h (kron A B) := kronecker_productnm_spec w hA hB la lb

/-- **C51**, `outer_product(a, b)`, `mat_vec_multnv(A, b)`, `mat_vec_addnm(A, b)`, `diagnm(a)`. -/
theorem C51_vectors [NonUnitalNonAssocSemiring R] (h : Heap R) (w : h.WF) (a b c : Nat) (A : Matrix (Fin m) (Fin n) R)
    (u : Fin p → R) (v : Fin n → R) (hA : IsMat h a A) (hb : IsVec h b u) (hc : IsVec h c v)
    (la : h.live (.m a)) (lb : h.live (.v b)) (lc : h.live (.v c)) :
    ReturnsMat (outer_product (some (.v b)) (some (.v c))) h (Matrix.vecMulVec u v) ∧
    ReturnsVec (mat_vec_multnv (some (.m a)) (some (.v c))) h (A.mulVec v) ∧
    ReturnsMat (mat_vec_addnm (some (.m a)) (some (.v c))) h (Matrix.of fun i j => A i j + v j) ∧
    ReturnsMat (diagnm (some (.v c))) h (Matrix.diagonal v) :=
  ⟨outer_product_spec w hb hc lb lc, mat_vec_multnv_spec w hA hc la lc, mat_vec_addnm_spec w hA hc la lc, diagnm_spec w hc lc⟩

/-- **C51** is false of `mat_vec_multnv(A, b)` with a `b` shorter than the rows of `A`: such operands are not rejected,
`[1 2] * [5]` is computed as `[5]`. -/
theorem C51_mat_vec_multnv_fails :
    (mat_vec_multnv (some (.m 0)) (some (.v 0)) (Heap.ofLists (0 : Int) [[5]] [(2, 1, [1, 2])])).bufOf (.v 2) = some [5] := by
  decide +kernel

/-- **C51**, `identitym(d)` is the identity; `flattenvvnv(A)` lists the cells row by row. -/
theorem C51_identity_flatten [Zero R] [One R] (h : Heap R) (w : h.WF) (a d : Nat) (A : Matrix (Fin m) (Fin n) R) (hA : IsMat h a A)
    (la : h.live (.m a)) : ReturnsMat (identitym d) h (1 : Matrix (Fin d) (Fin d) R) ∧
    Runs (flattenvvnv (some (.m a))) h fun r h' => ∃ o, r = some (.v o) ∧ ¬ h.live (.v o) ∧ h'.live (.v o) ∧ h'.WF ∧
      Keeps h h' (fun _ => False) ∧ h'.size (.v o) = ⟨n * m, 1, 1⟩ ∧
      ∀ (i : Fin m) (j : Fin n), (h'.buf (.v o))[i.val * n + j.val]? = some (A i j) :=
  ⟨identitym_spec w d, flattenvvnv_spec w hA la⟩

/-- **C51**, `subtract_matrix_rows*` subtract every row of `B` from the vector (in place, or into a new vector). -/
theorem C51_subtract_rows [AddCommGroup R] (h : Heap R) (w : h.WF) (a b : Nat) (u : Fin n → R)
    (B : Matrix (Fin m) (Fin n) R) (hu : IsVec h a u) (hB : IsMat h b B) (la : h.live (.v a)) (lb : h.live (.m b)) :
    SetsVec (Vec.subtract_matrix_rows a (some b)) h a (fun j => u j - ∑ i, B i j) ∧
    ReturnsVec (Vec.subtract_matrix_rowsn a (some b)) h (fun j => u j - ∑ i, B i j) ∧
    ReturnsVec (subtract_matrix_rowsnv (some (.v a)) (some (.m b))) h (fun j => u j - ∑ i, B i j) :=
  ⟨Vec.subtract_matrix_rows_spec w hu hB, Vec.subtract_matrix_rowsn_spec w hu hB la lb,
    LinAlg.subtract_matrix_rowsnv_spec w hu hB la lb⟩

/-- The hypotheses of the C51 theorems are met by a 2 × 3 matrix, a 3 × 1 matrix and vectors of 2 and 3 elements. -/
example : ∃ (h : Heap ℝ) (A : Matrix (Fin 2) (Fin 3) ℝ) (B : Matrix (Fin 3) (Fin 1) ℝ) (u : Fin 2 → ℝ) (v : Fin 3 → ℝ), h.WF ∧
    h.live (.m 0) ∧ h.live (.m 1) ∧ h.live (.v 0) ∧ h.live (.v 1) ∧ IsMat h 0 A ∧ IsMat h 1 B ∧ IsVec h 0 u ∧ IsVec h 1 v :=
  ⟨Heap.ofLists 0 [[7, 8], [9, 10, 11]] [(3, 2, [1, 2, 3, 4, 5, 6]), (1, 3, [1, 2, 3])], !![1, 2, 3; 4, 5, 6], !![1; 2; 3],
    ![7, 8], ![9, 10, 11], Heap.ofLists_wf _ _ _ (by simp), by simp [Heap.ofLists, Heap.live, Loc.id],
    by simp [Heap.ofLists, Heap.live, Loc.id], by simp [Heap.ofLists, Heap.live, Loc.id], by simp [Heap.ofLists, Heap.live, Loc.id],
    ⟨rfl, by intro i j; fin_cases i <;> fin_cases j <;> rfl⟩, ⟨rfl, by intro i j; fin_cases i <;> fin_cases j <;> rfl⟩,
    ⟨rfl, by intro i; fin_cases i <;> rfl⟩, ⟨rfl, by intro i; fin_cases i <;> rfl⟩⟩

/-! ## C52 -/

/-- **C52**, `detm(A, n)` of an `n × n` matrix, `n ≥ 2`, is the determinant; more generally `detm(A, d)` is the determinant
of the upper left `d × d` part. Missing: `n = 1`, see `C52_detm_one_by_one_fails`. -/
theorem C52_detm_partial (h : Heap ℝ) (w : h.WF) (a d : Nat) (A : Matrix (Fin m) (Fin n) ℝ) (hA : IsMat h a A)
    (la : h.live (.m a)) (hd : 2 ≤ d) (hm : d ≤ m) (hn : d ≤ n) : ReturnsVal (detm (some (.m a)) d) h
      (A.submatrix (Fin.castLE hm) (Fin.castLE hn)).det := by
  obtain ⟨F, eF, cA⟩ := hA.cells w
  have := detm_spec powNegOne_real d hd h w a n m F cA la hn hm
  have e : A.submatrix (Fin.castLE hm) (Fin.castLE hn) = Matrix.of fun i j : Fin d => F i j := by
    ext i j; simp [eF]
  rw [e]; exact this

/-- **C52** is false for 1 × 1 matrices: `detm` returns 0. -/
theorem C52_detm_one_by_one_fails (h : Heap ℝ) (w : h.WF) (a : Nat) (A : Matrix (Fin 1) (Fin 1) ℝ) (hA : IsMat h a A)
    (la : h.live (.m a)) : ReturnsVal (detm (some (.m a)) 1) h 0 := by
  obtain ⟨F, eF, cA⟩ := hA.cells w
  unfold detm
  dsimp only [Ref.mat?]
  refine Runs.newMat w rfl fun h2 w2 k2 f2 l2 s2 => Runs.fill w2 s2 ?_
  have na : Loc.m a ≠ .m h.next := live_ne_fresh la rfl
  have hA1 := (cA.keep k2 la nofun).Gr (c' := 0 + 1) (r' := 0 + 1) (G := fun _ _ => (0 : ℝ)) na
  simp only [foldN, loop, pure_bind, Nat.reduceAdd, bind_pure]
  refine Runs.step (Mat.element_get_run hA1 (i := 0) (j := 0) (by omega) (by omega)) ?_
  unfold detm
  dsimp only [Ref.mat?]
  simp only [bind_assoc]
  have kk := k2.trans_new (Gr_updated h2 (.m h.next) (fun _ _ => (0 : ℝ)) s2).keeps (fun _ e hl' => f2 (e ▸ hl'))
  refine Runs.newMat (Gr_wf w2 _ s2) rfl fun h3 w3 k3 f3 l3 s3 => Runs.fill w3 s3 ?_
  simp only [pure_bind]
  refine ⟨by simp, Gr_wf w3 _ s3, ?_⟩
  exact (kk.trans k3).trans_new (Gr_updated h3 _ _ s3).keeps (fun _ e hl' => f3 (e ▸ kk.live hl'))

/-- **C52**, `adjointnm` is the adjugate of any square matrix. -/
theorem C52_adjoint (h : Heap ℝ) (w : h.WF) (a : Nat) (A : Matrix (Fin n) (Fin n) ℝ) (hA : IsMat h a A) (la : h.live (.m a)) :
    ReturnsMat (adjointnm (some (.m a))) h A.adjugate := adjointnm_spec powNegOne_real w hA la

/-- **C52**, `inversenm(A)` of an invertible `n × n` matrix, `n ≥ 2`, is a two-sided inverse and `solve(A, b)` the unique
solution of `A x = b`. Missing: `n = 1`. -/
theorem C52_inverse_solve_partial (h : Heap ℝ) (w : h.WF) (a b : Nat) (hn : 2 ≤ n) (A : Matrix (Fin n) (Fin n) ℝ) (v : Fin n → ℝ)
    (hA : IsMat h a A) (hB : IsVec h b v) (la : h.live (.m a)) (lb : h.live (.v b)) (hd : A.det ≠ 0) :
    (∃ B : Matrix (Fin n) (Fin n) ℝ, A * B = 1 ∧ B * A = 1 ∧ ReturnsMat (inversenm (some (.m a))) h B) ∧
    ∃ x, ReturnsVec (LinAlg.solve (some (.m a)) (some (.v b))) h x ∧ A.mulVec x = v ∧ ∀ y, A.mulVec y = v → y = x := by
  refine ⟨⟨A⁻¹, Matrix.mul_nonsing_inv A (Ne.isUnit hd), Matrix.nonsing_inv_mul A (Ne.isUnit hd),
    inversenm_spec powNegOne_real w hn hA la⟩, C23_solve_partial h w a b hn A v hA hB la lb hd⟩

/-- **C52**, `pinversenm(A)` for an `m × n` matrix with linearly independent columns, `n ≥ 2`: a left inverse `P` of `A`,
and `A P` is symmetric (so `P b` is the least-squares solution of `A x = b`). Missing: `n = 1`. -/
theorem C52_pinverse_partial (h : Heap ℝ) (w : h.WF) (a : Nat) (hn : 2 ≤ n) (A : Matrix (Fin m) (Fin n) ℝ) (hA : IsMat h a A)
    (la : h.live (.m a)) (hd : (A.transpose * A).det ≠ 0) : ∃ P : Matrix (Fin n) (Fin m) ℝ,
      P * A = 1 ∧ (A * P).transpose = A * P ∧ ReturnsMat (pinversenm (some (.m a))) h P := by
  refine ⟨_, ?_, ?_, pinversenm_spec powNegOne_real w hn hA la⟩
  · rw [Matrix.mul_assoc, Matrix.nonsing_inv_mul _ (Ne.isUnit hd)]
  · simp [Matrix.transpose_mul, Matrix.transpose_nonsing_inv, Matrix.mul_assoc]

/-- The least-squares meaning of the two equations of `C52_pinverse_partial`. -/
theorem C52_pinverse_least_squares (A : Matrix (Fin m) (Fin n) ℝ) (P : Matrix (Fin n) (Fin m) ℝ) (h1 : P * A = 1)
    (h2 : (A * P).transpose = A * P) (b : Fin m → ℝ) (x : Fin n → ℝ) :
    ∑ i, (A.mulVec (P.mulVec b) i - b i) ^ 2 ≤ ∑ i, (A.mulVec x i - b i) ^ 2 := by
  -- `A x - b = A (x - P b) + (A P b - b)`, and the two summands are orthogonal
  set r : Fin m → ℝ := A.mulVec (P.mulVec b) - b with hr
  set d : Fin m → ℝ := A.mulVec (x - P.mulVec b) with hdd
  have ho : dotProduct d r = 0 := by
    have e : A.transpose.mulVec r = 0 := by
      have : A.transpose * (A * P) = A.transpose := by
        have := congrArg Matrix.transpose (show (A * P) * A = A by rw [Matrix.mul_assoc, h1, Matrix.mul_one])
        rwa [Matrix.transpose_mul, h2] at this
      rw [hr, Matrix.mulVec_sub, Matrix.mulVec_mulVec, Matrix.mulVec_mulVec, Matrix.mul_assoc, this, sub_self]
    rw [hdd, dotProduct_comm, Matrix.dotProduct_mulVec, ← Matrix.mulVec_transpose, e, zero_dotProduct]
  have es : A.mulVec x - b = d + r := by
    rw [hdd, hr, Matrix.mulVec_sub]; abel
  have : ∑ i, (A.mulVec x i - b i) ^ 2 = ∑ i, d i ^ 2 + ∑ i, r i ^ 2 := by
    have e1 : ∑ i, (A.mulVec x i - b i) ^ 2 = ∑ i, (d i + r i) ^ 2 :=
      Finset.sum_congr rfl fun i _ => by rw [← Pi.add_apply, ← es]; rfl
    have e2 : ∑ i, (d i + r i) ^ 2 = ∑ i, d i ^ 2 + ∑ i, r i ^ 2 + 2 * ∑ i, d i * r i := by
      rw [Finset.mul_sum, ← Finset.sum_add_distrib, ← Finset.sum_add_distrib]
      exact Finset.sum_congr rfl fun i _ => by ring
    have e3 : ∑ i, d i * r i = 0 := ho
    rw [e1, e2, e3]; ring
  rw [this]
  have : 0 ≤ ∑ i, d i ^ 2 := Finset.sum_nonneg fun i _ => sq_nonneg _
  have e4 : ∑ i, (A.mulVec (P.mulVec b) i - b i) ^ 2 = ∑ i, r i ^ 2 := rfl
  linarith

/-- **C52**, `linear_independence_checker(A)` for square `n × n`, `n ≥ 2`: true exactly when the columns are linearly
independent. Missing: other shapes, see `C52_linear_independence_fails`. -/
theorem C52_linear_independence_partial (h : Heap ℝ) (w : h.WF) (a : Nat) (hn : 2 ≤ n) (A : Matrix (Fin n) (Fin n) ℝ)
    (hA : IsMat h a A) (la : h.live (.m a)) : ∃ r, ReturnsVal (linear_independence_checker (some (.m a))) h r ∧
      (r = true ↔ LinearIndependent ℝ A.col) := by
  refine ⟨if (A.transpose * A).det = 0 then false else true, ?_, ?_⟩
  · unfold linear_independence_checker
    refine (gram_matrix_spec w hA la).bind fun g h1 w1 k1 f1 l1 hG => ?_
    have k := k1
    advance k1
    refine Runs.step (derefM_run g h1) (Runs.step (derefM_run a h1) (Runs.step (Mat.size_run a h1) ?_))
    rw [hA.1]
    have hd : ReturnsVal (Mat.detb g n) h1 (A.transpose * A).det := by
      have := det_spec powNegOne_real w1 hn hG l1
      unfold Mat.det at this
      have e : (do let s ← Mat.size g; Mat.detb g s.y : M ℝ ℝ) h1 = Mat.detb g n h1 := by
        rw [bind_ok (Mat.size_run g h1), hG.1]
      exact Runs.congr e.symm this
    refine hd.bind fun h2 w2 k2 => ?_
    exact ⟨rfl, w2, k.trans k2⟩
  · rw [Matrix.linearIndependent_cols_iff_isUnit, Matrix.isUnit_iff_isUnit_det, isUnit_iff_ne_zero, Matrix.det_mul,
      Matrix.det_transpose]
    simp

/-- **C52** is false of `linear_independence_checker` on wide matrices: the columns of `[1 0 0; 0 1 0]` are linearly dependent
and the answer is `true` (the determinant of the Gram matrix is asked for with the number of rows of `A`). -/
theorem C52_linear_independence_fails (h : Heap ℝ) (w : h.WF) (a : Nat)
    (hA : IsMat h a (!![1, 0, 0; 0, 1, 0] : Matrix (Fin 2) (Fin 3) ℝ)) (la : h.live (.m a)) :
    ReturnsVal (linear_independence_checker (some (.m a))) h true ∧
    ¬ LinearIndependent ℝ (!![1, 0, 0; 0, 1, 0] : Matrix (Fin 2) (Fin 3) ℝ).col := by
  constructor
  · unfold linear_independence_checker
    refine (gram_matrix_spec w hA la).bind fun g h1 w1 k1 f1 l1 hG => ?_
    have k := k1
    advance k1
    refine Runs.step (derefM_run g h1) (Runs.step (derefM_run a h1) (Runs.step (Mat.size_run a h1) ?_))
    rw [hA.1]
    obtain ⟨F, eF, cG⟩ := hG.cells w1
    have hd := detb_spec powNegOne_real 2 (Nat.le_refl _) h1 w1 g 3 3 F cG l1 (by omega) (by omega)
    refine hd.bind fun h2 w2 k2 => ?_
    refine ⟨?_, w2, k.trans k2⟩
    have f00 := eF 0 0
    have f01 := eF 0 1
    have f10 := eF 1 0
    have f11 := eF 1 1
    simp [Matrix.mul_apply, Fin.sum_univ_two] at f00 f01 f10 f11
    rw [if_neg]
    rw [Matrix.det_fin_two]
    simp [← f00, ← f01, ← f10, ← f11]
  · intro li
    have := li.fintype_card_le_finrank
    simp at this

/-- The hypotheses of `C52_pinverse_partial` are met by a 3 × 2 matrix, those of `C52_inverse_solve_partial` by a 2 × 2 one. -/
example : ∃ (h : Heap ℝ) (A : Matrix (Fin 3) (Fin 2) ℝ) (B : Matrix (Fin 2) (Fin 2) ℝ) (v : Fin 2 → ℝ), h.WF ∧ h.live (.m 0) ∧
    h.live (.m 1) ∧ h.live (.v 0) ∧ IsMat h 0 A ∧ IsMat h 1 B ∧ IsVec h 0 v ∧ (A.transpose * A).det ≠ 0 ∧ B.det ≠ 0 :=
  ⟨Heap.ofLists 0 [[5, 6]] [(2, 3, [1, 2, 3, 4, 5, 6]), (2, 2, [1, 2, 3, 4])], !![1, 2; 3, 4; 5, 6], !![1, 2; 3, 4], ![5, 6],
    Heap.ofLists_wf _ _ _ (by simp), by simp [Heap.ofLists, Heap.live, Loc.id], by simp [Heap.ofLists, Heap.live, Loc.id],
    by simp [Heap.ofLists, Heap.live, Loc.id], ⟨rfl, by intro i j; fin_cases i <;> fin_cases j <;> rfl⟩,
    ⟨rfl, by intro i j; fin_cases i <;> fin_cases j <;> rfl⟩, ⟨rfl, by intro i; fin_cases i <;> rfl⟩,
    by simp [Matrix.det_fin_two, Matrix.mul_apply, Fin.sum_univ_three]; norm_num, by simp [Matrix.det_fin_two]; norm_num⟩

end Verif
