import Verif.Lemmas.Svd
import Verif.Props.Eigen
import Mathlib.Data.Fin.Tuple.Sort

/-! # C125: singular value decomposition -/

namespace Verif
open Spec Eigen
variable {n m : Nat} {h : Heap ℝ}

/-- The three functions that compute a singular value decomposition, applied to matrix object `a`. -/
noncomputable def svdCalls (k a : Nat) : List (M ℝ (Option Eigen.SvdResult)) :=
  [Eigen.matSvd k (some (.m a)), Eigen.svdb k (some (.m a)), Eigen.linAlgSvd k (some (.m a))]

theorem svdCalls_run (hm : 2 ≤ m) (hn : 2 ≤ n) (w : h.WF) (k : Nat) {a : Nat} {A : Matrix (Fin m) (Fin n) ℝ} (ha : IsMat h a A) (la : h.live (.m a))
    (c : M ℝ (Option Eigen.SvdResult)) (hc : c ∈ svdCalls k a) : Runs c h (SvdPost k A h) := by
  have hA : HasM h (some (.m a)) A := ⟨a, rfl, la, ha⟩
  simp only [svdCalls, List.mem_cons, List.not_mem_nil, or_false] at hc
  rcases hc with rfl | rfl | rfl
  · exact matSvd_run hm hn w k hA
  · exact matSvd_run hm hn w k hA
  · exact linAlgSvd_run hm hn w k hA

theorem sigma_singular {B W D U : Matrix (Fin m) (Fin m) ℝ} (ar : Arranged B W D U) (d : IsDiagonal B) :
    SingularValues (sigmaOf D : Matrix (Fin m) (Fin n) ℝ) := by
  obtain ⟨z, s⟩ := arranged_diag ar d
  refine ⟨fun i j => ?_, fun i j hij => ?_, fun i j hi hi' hj hj' hij => ?_⟩
  · unfold sigmaOf; split
    · exact Real.sqrt_nonneg _
    · rfl
  · unfold sigmaOf; split
    · next q => rw [z _ _ (fun e => hij (by rw [e])), Real.sqrt_zero]
    · rfl
  · simp only [sigmaOf, dif_pos hi, dif_pos hj]
    exact Real.sqrt_le_sqrt (s _ _ hij)

theorem mul_symm_left (A : Matrix (Fin m) (Fin n) ℝ) : (A * A.transpose).transpose = A * A.transpose := by
  rw [Matrix.transpose_mul, Matrix.transpose_transpose]

theorem mul_symm_right (A : Matrix (Fin m) (Fin n) ℝ) : (A.transpose * A).transpose = A.transpose * A := by
  rw [Matrix.transpose_mul, Matrix.transpose_transpose]

theorem maySvd_of (hm : 2 ≤ m) (hn : 2 ≤ n) (w : h.WF) (k a : Nat) (A : Matrix (Fin m) (Fin n) ℝ) (ha : IsMat h a A) (la : h.live (.m a))
    (c : M ℝ (Option Eigen.SvdResult)) (hc : c ∈ svdCalls k a)
    {Q : Matrix (Fin m) (Fin m) ℝ → Matrix (Fin m) (Fin n) ℝ → Matrix (Fin n) (Fin n) ℝ → Prop}
    (q : ∀ B1 W1 B2 W2 D1 U D2 V, jac k (A * A.transpose) 1 = some (B1, W1) → jac k (A.transpose * A) 1 = some (B2, W2) → Arranged B1 W1 D1 U →
      Arranged B2 W2 D2 V → Q U (sigmaOf D1) V) : MayGiveSvd m n c h Q := by
  refine (svdCalls_run hm hn w k ha la c hc).mono fun r h' ⟨w', k', z⟩ => ⟨w', k', ?_⟩
  cases e1 : jac k (A * A.transpose) 1 with
  | none => rw [e1] at z; exact .inl z
  | some BW =>
    obtain ⟨B1, W1⟩ := BW
    rw [e1] at z
    cases e2 : jac k (A.transpose * A) 1 with
    | none => rw [e2] at z; exact .inl z
    | some BW2 =>
      obtain ⟨B2, W2⟩ := BW2
      rw [e2] at z
      obtain ⟨e, D1, U, D2, V, er, f1, f2, f3, hU, hS, hV, a1, a2⟩ := z
      exact .inr ⟨e, U, _, V, er, f1, f2, f3, hU, hS, hV, q B1 W1 B2 W2 D1 U D2 V e1 e2 a1 a2⟩

theorem svd_of (hm : 2 ≤ m) (hn : 2 ≤ n) (w : h.WF) (k a : Nat) (A : Matrix (Fin m) (Fin n) ℝ) (ha : IsMat h a A) (la : h.live (.m a))
    (c : M ℝ (Option Eigen.SvdResult)) (hc : c ∈ svdCalls k a) {B1 W1 B2 W2} (e1 : jac k (A * A.transpose) 1 = some (B1, W1))
    (e2 : jac k (A.transpose * A) 1 = some (B2, W2))
    {Q : Matrix (Fin m) (Fin m) ℝ → Matrix (Fin m) (Fin n) ℝ → Matrix (Fin n) (Fin n) ℝ → Prop}
    (q : ∀ D1 U D2 V, Arranged B1 W1 D1 U → Arranged B2 W2 D2 V → Q U (sigmaOf D1) V) : GivesSvd m n c h Q := by
  refine (svdCalls_run hm hn w k ha la c hc).mono fun r h' ⟨w', k', z⟩ => ⟨w', k', ?_⟩
  rw [e1, e2] at z
  obtain ⟨e, D1, U, D2, V, er, f1, f2, f3, hU, hS, hV, a1, a2⟩ := z
  exact ⟨e, U, _, V, er, f1, f2, f3, hU, hS, hV, q D1 U D2 V a1 a2⟩

/-- **C125** (part): whatever the matrix (of at least two rows and columns) and however many rounds are needed, if the call comes to an end, the
results are three new matrices, of which the second holds non-negative values in descending order on its diagonal and zeros elsewhere, and
the columns of the other two have length 1; if these values are all different and the operand is square, the columns of the first are
orthogonal. Missing: that the product of the three is the operand, see `C125_product_fails`, and that the call does come to an end. -/
theorem C125_svd_partial (hm : 2 ≤ m) (hn : 2 ≤ n) (w : h.WF) (k a : Nat) (A : Matrix (Fin m) (Fin n) ℝ) (ha : IsMat h a A) (la : h.live (.m a))
    (c : M ℝ (Option Eigen.SvdResult)) (hc : c ∈ svdCalls k a) :
    MayGiveSvd m n c h fun U S V => SingularValues S ∧ UnitColumns U ∧ UnitColumns V ∧
      (m ≤ n → (∀ (i j : Nat) (hi : i < m) (hi' : i < n) (hj : j < m) (hj' : j < n), i ≠ j → S ⟨i, hi⟩ ⟨i, hi'⟩ ≠ S ⟨j, hj⟩ ⟨j, hj'⟩) →
        U.transpose * U = 1) := by
  refine maySvd_of hm hn w k a A ha la c hc fun B1 W1 B2 W2 D1 U D2 V e1 e2 a1 a2 => ?_
  obtain ⟨-, o1, s1⟩ := jac_inv hm k _ 1 B1 W1 e1
  obtain ⟨-, o2, -⟩ := jac_inv hn k _ 1 B2 W2 e2
  refine ⟨sigma_singular a1 (s1 (mul_symm_left A)), arranged_unit a1 (o1 (by simp)), arranged_unit a2 (o2 (by simp)), fun le q =>
    arranged_inj a1 (o1 (by simp)) fun i j hij e => ?_⟩
  have hne : i.val ≠ j.val := fun z => hij (Fin.ext z)
  refine q i j i.isLt (by omega) j.isLt (by omega) hne ?_
  simp [sigmaOf, e]

/-- The eigenvalues of `A * Aᵀ` are not negative. -/
theorem gram_nonneg {A : Matrix (Fin m) (Fin n) ℝ} {D U : Matrix (Fin m) (Fin m) ℝ} (u : UnitColumns U) (dg : IsDiagonal D)
    (e : A * A.transpose * U = U * D) (j : Fin m) : 0 ≤ D j j := by
  have h1 : (U.transpose * (A * A.transpose * U)) j j = D j j := by
    rw [e, ← Matrix.mul_assoc, diag_eq dg, Matrix.mul_diagonal]
    have : (U.transpose * U) j j = 1 := by
      rw [Matrix.mul_apply, ← u j]
      exact Finset.sum_congr rfl fun i _ => by rw [sq]; rfl
    rw [this, one_mul, Matrix.diagonal_apply_eq]
  rw [← h1, show U.transpose * (A * A.transpose * U) = (A.transpose * U).transpose * (A.transpose * U) by
    rw [Matrix.transpose_mul, Matrix.transpose_transpose]; simp only [Matrix.mul_assoc]]
  rw [Matrix.mul_apply]
  exact Finset.sum_nonneg fun i _ => mul_self_nonneg _

theorem sigma_square {D : Matrix (Fin n) (Fin n) ℝ} (dg : IsDiagonal D) (nn : ∀ j, 0 ≤ D j j) :
    (sigmaOf D : Matrix (Fin n) (Fin n) ℝ) * sigmaOf D = D := by
  have ds : IsDiagonal (sigmaOf D : Matrix (Fin n) (Fin n) ℝ) := fun i j e => by simp [sigmaOf, dg i j e]
  rw [diag_eq ds, Matrix.diagonal_mul_diagonal]
  conv_rhs => rw [diag_eq dg]
  congr 1
  funext i
  simp [sigmaOf, Real.mul_self_sqrt (nn i)]

theorem arranged_det {A B W D V : Matrix (Fin n) (Fin n) ℝ} (ar : Arranged B W D V) (d : IsDiagonal B) (o : W.transpose * W = 1) (key : A * W = W * B) :
    D.det = A.det := by
  have dD := (arranged_diag ar d).1
  have e1 : D.det = B.det := by
    rw [diag_eq dD, diag_eq d, Matrix.det_diagonal, Matrix.det_diagonal]
    obtain ⟨σ, v, -, eD, -, -⟩ := ar
    simp only [eD, if_true]
    exact Equiv.prod_comp σ fun i => B i i
  have e2 := congrArg Matrix.det key
  rw [Matrix.det_mul, Matrix.det_mul] at e2
  have e3 := congrArg Matrix.det o
  rw [Matrix.det_mul, Matrix.det_transpose, Matrix.det_one] at e3
  have : W.det ≠ 0 := fun z => by rw [z] at e3; simp at e3
  rw [e1]
  exact mul_left_cancel₀ this (by rw [← e2, mul_comm])

/-- Two pairs in descending order with the same sum and the same product are equal. -/
theorem pair_unique {a b c d : ℝ} (h1 : b ≤ a) (h2 : d ≤ c) (s : a + b = c + d) (p : a * b = c * d) : a = c ∧ b = d := by
  have : (a - b) ^ 2 = (c - d) ^ 2 := by
    have e : ∀ x y : ℝ, (x - y) ^ 2 = (x + y) ^ 2 - 4 * (x * y) := fun x y => by ring
    rw [e, e, s, p]
  have := (sq_eq_sq₀ (sub_nonneg.mpr h1) (sub_nonneg.mpr h2)).mp this
  constructor <;> linarith

/-- **C125** (part): for a `2 × 2` matrix the call comes to an end within two rounds; column `j` of `U` is an eigenvector of `A * Aᵀ` and column
`j` of `Vt` (not row) an eigenvector of `Aᵀ * A`, of length 1, both for the square of the singular value in position `j`, and the columns
are orthogonal if the two singular values differ. -/
theorem C125_two_by_two_partial (w : h.WF) (k a : Nat) (hk : 2 ≤ k) (A : Matrix (Fin 2) (Fin 2) ℝ) (ha : IsMat h a A) (la : h.live (.m a))
    (c : M ℝ (Option Eigen.SvdResult)) (hc : c ∈ svdCalls k a) :
    GivesSvd 2 2 c h fun U S V => SingularValues S ∧ UnitColumns U ∧ UnitColumns V ∧ A * A.transpose * U = U * (S * S) ∧
      A.transpose * A * V = V * (S * S) ∧ (S 0 0 ≠ S 1 1 → U.transpose * U = 1 ∧ V.transpose * V = 1) := by
  obtain ⟨k, rfl⟩ : ∃ j, k = j + 2 := ⟨k - 2, by omega⟩
  obtain ⟨B1, W1, e1, o1, key1, d1⟩ := jac_two (mul_symm_left A) k
  obtain ⟨B2, W2, e2, o2, key2, d2⟩ := jac_two (mul_symm_right A) k
  refine svd_of le_rfl le_rfl w _ a A ha la c hc e1 e2 fun D1 U D2 V a1 a2 => ?_
  have g1 := arranged_eig a1 d1 key1
  have g2 := arranged_eig a2 d2 key2
  obtain ⟨dg1, so1⟩ := arranged_diag a1 d1
  obtain ⟨dg2, so2⟩ := arranged_diag a2 d2
  have u1 := arranged_unit a1 o1
  have u2 := arranged_unit a2 o2
  have nn := gram_nonneg u1 dg1 g1
  have eD : D1 = D2 := by
    have t : D1.trace = D2.trace := by
      rw [arranged_trace a1, arranged_trace a2, (jac_inv le_rfl _ _ 1 B1 W1 e1).1, (jac_inv le_rfl _ _ 1 B2 W2 e2).1, Matrix.trace_mul_comm]
    have p : D1.det = D2.det := by
      rw [arranged_det a1 d1 o1 key1, arranged_det a2 d2 o2 key2, Matrix.det_mul, Matrix.det_mul, mul_comm]
    rw [Matrix.trace_fin_two, Matrix.trace_fin_two] at t
    rw [diag_eq dg1, diag_eq dg2, Matrix.det_diagonal, Matrix.det_diagonal, Fin.prod_univ_two, Fin.prod_univ_two] at p
    obtain ⟨z0, z1⟩ := pair_unique (so1 0 1 (by decide)) (so2 0 1 (by decide)) t p
    rw [diag_eq dg1, diag_eq dg2]
    congr 1
    funext i
    fin_cases i
    · exact z0
    · exact z1
  refine ⟨sigma_singular a1 d1, u1, u2, ?_, ?_, fun q => ?_⟩
  · rw [sigma_square dg1 nn, g1]
  · rw [sigma_square dg1 nn, eD, g2]
  · have key : ∀ i j : Fin 2, i ≠ j → D1 i i ≠ D1 j j := by
      intro i j hij e
      refine q ?_
      have e' : D1 0 0 = D1 1 1 := by
        have : (i = 0 ∧ j = 1) ∨ (i = 1 ∧ j = 0) := by clear * - hij; revert i j; decide
        rcases this with ⟨rfl, rfl⟩ | ⟨rfl, rfl⟩
        · exact e
        · exact e.symm
      simp [sigmaOf, e']
    exact ⟨arranged_inj a1 o1 key, arranged_inj a2 o2 (eD ▸ key)⟩

/-- **C125** (part): for a diagonal matrix of any size (at least two rows) the call comes to an end in the first round; the singular values are
the absolute values of the entries of the diagonal, each as often as it occurs, in descending order, and the columns of `U` and of `Vt` (not
its rows) are eigenvectors of `A * Aᵀ` and of `Aᵀ * A` for their squares. -/
theorem C125_diagonal_partial (hn : 2 ≤ n) (w : h.WF) (k a : Nat) (hk : 1 ≤ k) (d : Fin n → ℝ) (ha : IsMat h a (Matrix.diagonal d))
    (la : h.live (.m a)) (c : M ℝ (Option Eigen.SvdResult)) (hc : c ∈ svdCalls k a) :
    GivesSvd n n c h fun U S V => SingularValues S ∧ (∃ σ : Equiv.Perm (Fin n), ∀ i, S i i = |d (σ i)|) ∧ UnitColumns U ∧ UnitColumns V ∧
      (Matrix.diagonal d * (Matrix.diagonal d).transpose) * U = U * (S * S) ∧
      ((Matrix.diagonal d).transpose * Matrix.diagonal d) * V = V * (S * S) := by
  obtain ⟨k, rfl⟩ : ∃ j, k = j + 1 := ⟨k - 1, by omega⟩
  have hA : Matrix.diagonal d * (Matrix.diagonal d).transpose = Matrix.diagonal fun i => d i * d i := by
    rw [Matrix.diagonal_transpose, Matrix.diagonal_mul_diagonal]
  have hA' : (Matrix.diagonal d).transpose * Matrix.diagonal d = Matrix.diagonal fun i => d i * d i := by
    rw [Matrix.diagonal_transpose, Matrix.diagonal_mul_diagonal]
  have dg : IsDiagonal (Matrix.diagonal fun i => d i * d i) := fun i j e => Matrix.diagonal_apply_ne _ e
  have e := jac_diag dg hn k 1
  rw [Matrix.one_mul] at e
  have o := rotOf_orth (Matrix.diagonal fun i => d i * d i) hn
  refine svd_of hn hn w _ a _ ha la c hc ((congrArg (fun X => jac (k + 1) X 1) hA).trans e) ((congrArg (fun X => jac (k + 1) X 1) hA').trans e) fun D1 U D2 V a1 a2 => ?_
  have g1 := arranged_eig a1 dg (rotOf_comm dg hn)
  have g2 := arranged_eig a2 dg (rotOf_comm dg hn)
  obtain ⟨dg1, so1⟩ := arranged_diag a1 dg
  obtain ⟨dg2, so2⟩ := arranged_diag a2 dg
  have u1 := arranged_unit a1 o
  have u2 := arranged_unit a2 o
  have eD : D1 = D2 := by
    rw [diag_eq dg1, diag_eq dg2]
    congr 1
    obtain ⟨σ, -, s1, e1, -⟩ := a1
    obtain ⟨τ, -, s2, e2, -⟩ := a2
    have := Tuple.unique_antitone (f := fun i => d i * d i) (σ := σ) (τ := τ) (fun i j q => by simpa using s1 i j q) (fun i j q => by simpa using s2 i j q)
    funext i
    have := congrFun this i
    simpa [e1, e2] using this
  have nn : ∀ j, 0 ≤ D1 j j := by
    obtain ⟨σ, -, s1, e1, -⟩ := a1
    intro j
    simp [e1, mul_self_nonneg]
  refine ⟨sigma_singular a1 dg, ?_, u1, u2, ?_, ?_⟩
  · obtain ⟨σ, -, s1, e1, -⟩ := a1
    refine ⟨σ, fun i => ?_⟩
    simp [sigmaOf, e1, Real.sqrt_mul_self_eq_abs]
  · rw [sigma_square dg1 nn, hA, g1]
  · rw [sigma_square dg1 nn, hA', eD, g2]

/-- Results made from the same matrices are the same. -/
theorem arranged_unique {B W D V D' V' : Matrix (Fin n) (Fin n) ℝ} (h1 : Arranged B W D V) (h2 : Arranged B W D' V') : V = V' := by
  obtain ⟨σ, v, s1, -, e1, -, l1⟩ := h1
  obtain ⟨τ, v', s2, -, e2, -, l2⟩ := h2
  have u := Tuple.unique_antitone (f := fun i => B i i) (σ := σ) (τ := τ) (fun i j q => s1 i j q) (fun i j q => s2 i j q)
  have : v = v' := by
    funext i
    refine Fin.ext ?_
    have ui : B (σ i) (σ i) = B (τ i) (τ i) := congrFun u i
    rw [l1, l2, ui]
  ext i j
  rw [e1, e2, this]

theorem sigma_det {D : Matrix (Fin n) (Fin n) ℝ} (dg : IsDiagonal D) : 0 ≤ (sigmaOf D : Matrix (Fin n) (Fin n) ℝ).det := by
  have ds : IsDiagonal (sigmaOf D : Matrix (Fin n) (Fin n) ℝ) := fun i j e => by simp [sigmaOf, dg i j e]
  rw [diag_eq ds, Matrix.det_diagonal]
  exact Finset.prod_nonneg fun i _ => by simp [sigmaOf, Real.sqrt_nonneg]

/-- **C125** is false: for a square matrix with negative determinant that commutes with its transpose (a symmetric one, say), of whatever size,
whenever the call comes to an end `U = Vt`, and so neither `U * S * Vt` nor `U * S * Vtᵀ` is the operand. -/
theorem C125_product_fails (hn : 2 ≤ n) (w : h.WF) (k a : Nat) (A : Matrix (Fin n) (Fin n) ℝ) (ha : IsMat h a A) (la : h.live (.m a))
    (hA : A * A.transpose = A.transpose * A) (hd : A.det < 0) (c : M ℝ (Option Eigen.SvdResult)) (hc : c ∈ svdCalls k a) :
    MayGiveSvd n n c h fun U S V => U = V ∧ U * S * V ≠ A ∧ U * S * V.transpose ≠ A := by
  refine maySvd_of hn hn w k a A ha la c hc fun B1 W1 B2 W2 D1 U D2 V e1 e2 a1 a2 => ?_
  rw [hA, e2] at e1
  obtain ⟨rfl, rfl⟩ : B2 = B1 ∧ W2 = W1 := by simpa using e1
  have eU := arranged_unique a1 a2
  subst eU
  have dg := (arranged_diag a1 ((jac_inv hn k _ 1 _ _ e2).2.2 (mul_symm_right A))).1
  have nn := sigma_det dg
  have key : 0 ≤ U.det * (sigmaOf D1 : Matrix (Fin n) (Fin n) ℝ).det * U.det := by nlinarith [mul_self_nonneg U.det, mul_nonneg (mul_self_nonneg U.det) nn]
  refine ⟨rfl, fun e => ?_, fun e => ?_⟩
  · rw [← e, Matrix.det_mul, Matrix.det_mul] at hd
    linarith
  · rw [← e, Matrix.det_mul, Matrix.det_mul, Matrix.det_transpose] at hd
    linarith

/-- **C125** is false for repeated singular values: for a multiple of the `2 × 2` identity all the columns of `U` and of `Vt` are the same, so the
product has determinant 0, whether `Vt` is transposed or not. -/
theorem C125_repeated_fails (w : h.WF) (k a : Nat) (hk : 1 ≤ k) (x : ℝ) (hx : x ≠ 0) (ha : IsMat h a (Matrix.diagonal fun _ : Fin 2 => x))
    (la : h.live (.m a)) (c : M ℝ (Option Eigen.SvdResult)) (hc : c ∈ svdCalls k a) :
    GivesSvd 2 2 c h fun U S V => (∀ i, U i 0 = U i 1) ∧ U * S * V ≠ Matrix.diagonal (fun _ => x) ∧
      U * S * V.transpose ≠ Matrix.diagonal (fun _ => x) := by
  obtain ⟨k, rfl⟩ : ∃ j, k = j + 1 := ⟨k - 1, by omega⟩
  have hA : Matrix.diagonal (fun _ : Fin 2 => x) * (Matrix.diagonal fun _ : Fin 2 => x).transpose = Matrix.diagonal fun _ => x * x := by
    rw [Matrix.diagonal_transpose, Matrix.diagonal_mul_diagonal]
  have hA' : (Matrix.diagonal (fun _ : Fin 2 => x)).transpose * (Matrix.diagonal fun _ : Fin 2 => x) = Matrix.diagonal fun _ => x * x := by
    rw [Matrix.diagonal_transpose, Matrix.diagonal_mul_diagonal]
  have dg : IsDiagonal (Matrix.diagonal fun _ : Fin 2 => x * x) := fun i j e => Matrix.diagonal_apply_ne _ e
  have e := jac_diag dg le_rfl k 1
  rw [Matrix.one_mul] at e
  refine svd_of le_rfl le_rfl w _ a _ ha la c hc ((congrArg (fun X => jac (k + 1) X 1) hA).trans e) ((congrArg (fun X => jac (k + 1) X 1) hA').trans e) fun D1 U D2 V a1 a2 => ?_
  have cols : ∀ i, U i 0 = U i 1 := by
    obtain ⟨σ, v, -, -, eV, -, l⟩ := a1
    intro i
    rw [eV, eV]
    congr 1
    exact Fin.ext (by rw [l, l]; simp)
  have du : U.det = 0 := by
    rw [Matrix.det_fin_two, cols 0, cols 1]; ring
  have dx : (Matrix.diagonal fun _ : Fin 2 => x).det ≠ 0 := by
    rw [Matrix.det_diagonal]; simp [hx]
  refine ⟨cols, fun e => dx ?_, fun e => dx ?_⟩
  · rw [← e, Matrix.det_mul, Matrix.det_mul, du]; simp
  · rw [← e, Matrix.det_mul, Matrix.det_mul, du]; simp

/-- **C125**: without a matrix `svdb` and `MLPPLinAlg::svd` return null handles. -/
theorem C125_null (k : Nat) (h : Heap ℝ) : Eigen.svdb k none h = .ok (some ⟨none, none, none⟩, h) ∧
    Eigen.linAlgSvd k none h = .ok (some ⟨none, none, none⟩, h) := ⟨rfl, rfl⟩

/-- A heap with a matrix that is no multiple of the identity, a symmetric matrix with negative determinant, a diagonal one and a multiple of the
identity. -/
noncomputable def svdHeap : Heap ℝ := Heap.ofLists 0 [] [(2, 2, [1, 2, 0, 1]), (2, 2, [0, 1, 1, 0]), (2, 2, [-2, 0, 0, 1]), (2, 2, [3, 0, 0, 3]), (3, 2, [1, 2, 3, 4, 5, 6])]

theorem svdHeap_wf : svdHeap.WF := Heap.ofLists_wf _ _ _ (by simp)

/-- Instances of the hypotheses, the call coming to an end in the second and the third. -/
example : svdHeap.WF ∧ (IsMat svdHeap 0 (!![1, 2; 0, 1] : Matrix (Fin 2) (Fin 2) ℝ) ∧ svdHeap.live (.m 0)) ∧
    (IsMat svdHeap 1 (!![0, 1; 1, 0] : Matrix (Fin 2) (Fin 2) ℝ) ∧ svdHeap.live (.m 1) ∧
      (!![0, 1; 1, 0] : Matrix (Fin 2) (Fin 2) ℝ) * (!![0, 1; 1, 0] : Matrix (Fin 2) (Fin 2) ℝ).transpose =
        (!![0, 1; 1, 0] : Matrix (Fin 2) (Fin 2) ℝ).transpose * !![0, 1; 1, 0] ∧ (!![0, 1; 1, 0] : Matrix (Fin 2) (Fin 2) ℝ).det < 0) ∧
    (IsMat svdHeap 2 (Matrix.diagonal (![-2, 1] : Fin 2 → ℝ)) ∧ svdHeap.live (.m 2)) ∧
    (IsMat svdHeap 3 (Matrix.diagonal fun _ : Fin 2 => (3 : ℝ)) ∧ svdHeap.live (.m 3)) ∧
    (IsMat svdHeap 4 (!![1, 2, 3; 4, 5, 6] : Matrix (Fin 2) (Fin 3) ℝ) ∧ svdHeap.live (.m 4)) := by
  refine ⟨svdHeap_wf, ⟨⟨?_, ?_⟩, ?_⟩, ⟨⟨?_, ?_⟩, ?_, ?_, ?_⟩, ⟨⟨?_, ?_⟩, ?_⟩, ⟨⟨?_, ?_⟩, ?_⟩, ⟨⟨?_, ?_⟩, ?_⟩⟩
  · simp [svdHeap, Heap.ofLists]
  · intro i j; fin_cases i <;> fin_cases j <;> simp [svdHeap, Heap.ofLists]
  · simp [svdHeap, Heap.ofLists, Heap.live, Loc.id]
  · simp [svdHeap, Heap.ofLists]
  · intro i j; fin_cases i <;> fin_cases j <;> simp [svdHeap, Heap.ofLists]
  · simp [svdHeap, Heap.ofLists, Heap.live, Loc.id]
  · ext i j; fin_cases i <;> fin_cases j <;> simp [Matrix.mul_apply, Fin.sum_univ_two]
  · simp [Matrix.det_fin_two]
  · simp [svdHeap, Heap.ofLists]
  · intro i j; fin_cases i <;> fin_cases j <;> simp [svdHeap, Heap.ofLists]
  · simp [svdHeap, Heap.ofLists, Heap.live, Loc.id]
  · simp [svdHeap, Heap.ofLists]
  · intro i j; fin_cases i <;> fin_cases j <;> simp [svdHeap, Heap.ofLists]
  · simp [svdHeap, Heap.ofLists, Heap.live, Loc.id]
  · simp [svdHeap, Heap.ofLists]
  · intro i j; fin_cases i <;> fin_cases j <;> simp [svdHeap, Heap.ofLists]
  · simp [svdHeap, Heap.ofLists, Heap.live, Loc.id]

end Verif
