import Verif.Lemmas.Eigen
import Verif.Lemmas.Example
import Mathlib.LinearAlgebra.Matrix.Notation
import Mathlib.LinearAlgebra.Matrix.ToLin

/-! # C123: eigenvalues and eigenvectors; C124: definiteness checks -/

namespace Verif
open Spec Eigen
variable {n : Nat} {h : Heap ℝ}

/-- The three functions that compute eigenvalues, applied to matrix object `a`. -/
noncomputable def eigenCalls (k a : Nat) : List (M ℝ (Option Eigen.Result)) := [Mat.eigen k a, Mat.eigenb k (some (.m a)), LinAlg.eigen k (some (.m a))]

theorem eigenCalls_run (hn : 2 ≤ n) (w : h.WF) (k : Nat) {a : Nat} {A : Matrix (Fin n) (Fin n) ℝ} (ha : IsMat h a A) (la : h.live (.m a))
    (c : M ℝ (Option Eigen.Result)) (hc : c ∈ eigenCalls k a) :
    Runs c h fun r h' => h'.WF ∧ Keeps h h' (fun _ => False) ∧
      match jac k A 1 with
      | none => r = none
      | some (B, W) => ∃ e D V, r = some e ∧ NotIn h e.eigen_values ∧ NotIn h e.eigen_vectors ∧ e.eigen_values ≠ e.eigen_vectors ∧
          HasM h' e.eigen_values D ∧ HasM h' e.eigen_vectors V ∧ Arranged B W D V := by
  have hA : HasM h (some (.m a)) A := ⟨a, rfl, la, ha⟩
  simp only [eigenCalls, List.mem_cons, List.not_mem_nil, or_false] at hc
  rcases hc with rfl | rfl | rfl
  · exact eigen_run (matOps_ok hn) hn w k hA
  · exact eigen_run (matOps_ok hn) hn w k hA
  · exact eigen_run (linAlgOps_ok hn) hn w k hA

theorem gives_of {k a : Nat} {A B W : Matrix (Fin n) (Fin n) ℝ} (hn : 2 ≤ n) (w : h.WF) (ha : IsMat h a A) (la : h.live (.m a))
    (e : jac k A 1 = some (B, W)) (c : M ℝ (Option Eigen.Result)) (hc : c ∈ eigenCalls k a)
    {Q : Matrix (Fin n) (Fin n) ℝ → Matrix (Fin n) (Fin n) ℝ → Prop} (q : ∀ D V, Arranged B W D V → Q D V) : GivesEigen n c h Q := by
  refine (eigenCalls_run hn w k ha la c hc).mono fun r h' ⟨w', k', z⟩ => ⟨w', k', ?_⟩
  rw [e] at z
  obtain ⟨e, D, V, er, f1, f2, ne, hD, hV, ar⟩ := z
  exact ⟨e, D, V, er, f1, f2, ne, hD, hV, q D V ar⟩

/-- **C123** (part): whatever the square matrix (of at least two rows) and however many rounds are needed, if the call comes to an end, the
results are new matrices, the reported eigenvalues are in descending order and sum up to the trace of the operand, and every reported
eigenvector has length 1; for a symmetric operand the matrix of eigenvalues is diagonal; the reported eigenvectors are pairwise orthogonal if
the reported eigenvalues are all different. Missing: that they are eigenvalues, see `C123_negative_fails`, and that the call does come
to an end. -/
theorem C123_eigen_partial (hn : 2 ≤ n) (w : h.WF) (k a : Nat) (A : Matrix (Fin n) (Fin n) ℝ) (ha : IsMat h a A) (la : h.live (.m a))
    (c : M ℝ (Option Eigen.Result)) (hc : c ∈ eigenCalls k a) :
    MayGiveEigen n c h fun D V => (∀ i j, i ≤ j → D j j ≤ D i i) ∧ ∑ i, D i i = ∑ i, A i i ∧ UnitColumns V ∧
      (A.transpose = A → SortedDiagonal D) ∧ ((∀ i j, i ≠ j → D i i ≠ D j j) → V.transpose * V = 1) := by
  refine (eigenCalls_run hn w k ha la c hc).mono fun r h' ⟨w', k', z⟩ => ⟨w', k', ?_⟩
  cases e : jac k A 1 with
  | none => rw [e] at z; exact .inl z
  | some BW =>
    obtain ⟨B, W⟩ := BW
    rw [e] at z
    obtain ⟨e', D, V, er, f1, f2, ne, hD, hV, ar⟩ := z
    obtain ⟨t, o, s⟩ := jac_inv hn k A 1 B W e
    have o' := o (by simp)
    exact .inr ⟨e', D, V, er, f1, f2, ne, hD, hV, arranged_sorted ar, (arranged_trace ar).trans t, arranged_unit ar o',
      fun hs => arranged_diag ar (s hs), arranged_inj ar o'⟩

/-- A `2 × 2` matrix similar to a multiple of the identity is that multiple. -/
theorem scalar_of_diag {A W B : Matrix (Fin n) (Fin n) ℝ} (o : W.transpose * W = 1) (e : A * W = W * B) {x : ℝ} (hB : B = Matrix.diagonal fun _ => x) :
    A = Matrix.diagonal fun _ => x := by
  have : A = A * W * W.transpose := by rw [Matrix.mul_assoc, orth_comm o, Matrix.mul_one]
  rw [this, e, hB]
  rw [show (Matrix.diagonal fun _ : Fin n => x) = x • (1 : Matrix (Fin n) (Fin n) ℝ) by ext i j; by_cases q : i = j <;> simp [q]]
  rw [Matrix.mul_smul, Matrix.mul_one, Matrix.smul_mul, orth_comm o]

/-- **C123** (part): for a symmetric `2 × 2` matrix the call comes to an end within two rounds, the eigenvalues are those of the operand, in
descending order on the diagonal of the first result, column `j` of the second is an eigenvector of length 1 for the eigenvalue in position
`j`, and the columns are orthogonal unless the operand is a multiple of the identity. -/
theorem C123_two_by_two (w : h.WF) (k a : Nat) (hk : 2 ≤ k) (A : Matrix (Fin 2) (Fin 2) ℝ) (hs : A.transpose = A) (ha : IsMat h a A)
    (la : h.live (.m a)) (c : M ℝ (Option Eigen.Result)) (hc : c ∈ eigenCalls k a) :
    GivesEigen 2 c h fun D V => SortedDiagonal D ∧ A * V = V * D ∧ UnitColumns V ∧ ((¬ ∃ x, A = Matrix.diagonal fun _ => x) → Diagonalizes A D V) := by
  obtain ⟨k, rfl⟩ : ∃ j, k = j + 2 := ⟨k - 2, by omega⟩
  obtain ⟨B, W, e, o, key, d⟩ := jac_two hs k
  refine gives_of le_rfl w ha la e c hc fun D V ar => ?_
  have ae := arranged_eig ar d key
  refine ⟨arranged_diag ar d, ae, arranged_unit ar o, fun ns => ⟨arranged_inj ar o fun i j hij eq => ns ?_, ae⟩⟩
  obtain ⟨σ, v, -, eD, -, -⟩ := ar
  rw [eD, eD, if_pos rfl, if_pos rfl] at eq
  refine ⟨B (σ i) (σ i), scalar_of_diag o key ?_⟩
  rw [diag_eq d]
  congr 1
  funext p
  have : p = σ i ∨ p = σ j := by
    have hne : σ i ≠ σ j := fun q => hij (σ.injective q)
    generalize σ i = x at hne ⊢
    generalize σ j = y at hne ⊢
    clear * - hne
    revert p x y; decide
  rcases this with rfl | rfl
  · simp
  · simp [eq]

/-- **C123** (part): for a diagonal matrix of any size (at least two rows) the call comes to an end in the first round; the eigenvalues are the
entries of the diagonal, each as often as it occurs there, in descending order, with eigenvectors of length 1, which are orthogonal if the
entries are all different. -/
theorem C123_diagonal (hn : 2 ≤ n) (w : h.WF) (k a : Nat) (hk : 1 ≤ k) (d : Fin n → ℝ) (ha : IsMat h a (Matrix.diagonal d)) (la : h.live (.m a))
    (c : M ℝ (Option Eigen.Result)) (hc : c ∈ eigenCalls k a) :
    GivesEigen n c h fun D V => SortedDiagonal D ∧ (∃ σ : Equiv.Perm (Fin n), ∀ i, D i i = d (σ i)) ∧ Matrix.diagonal d * V = V * D ∧ UnitColumns V ∧
      (Function.Injective d → Diagonalizes (Matrix.diagonal d) D V) := by
  obtain ⟨k, rfl⟩ : ∃ j, k = j + 1 := ⟨k - 1, by omega⟩
  have dg : IsDiagonal (Matrix.diagonal d) := fun i j e => Matrix.diagonal_apply_ne _ e
  have e := jac_diag dg hn k 1
  rw [Matrix.one_mul] at e
  have o := rotOf_orth (Matrix.diagonal d) hn
  refine gives_of hn w ha la e c hc fun D V ar => ?_
  have ae := arranged_eig ar dg (rotOf_comm dg hn)
  have perm : ∃ σ : Equiv.Perm (Fin n), ∀ i, D i i = d (σ i) := by
    obtain ⟨σ, v, -, eD, -, -⟩ := ar
    exact ⟨σ, fun i => by simp [eD]⟩
  refine ⟨arranged_diag ar dg, perm, ae, arranged_unit ar o, fun inj => ⟨arranged_inj ar o fun i j hij eq => hij ?_, ae⟩⟩
  obtain ⟨σ, q⟩ := perm
  rw [q, q] at eq
  exact σ.injective (inj eq)

/-- **C123** is false of repeated eigenvalues: for a multiple of the identity both reported eigenvectors are the same vector, so that they are
no basis. -/
theorem C123_repeated_fails (w : h.WF) (k a : Nat) (hk : 1 ≤ k) (x : ℝ) (ha : IsMat h a (Matrix.diagonal fun _ : Fin 2 => x)) (la : h.live (.m a))
    (c : M ℝ (Option Eigen.Result)) (hc : c ∈ eigenCalls k a) :
    GivesEigen 2 c h fun _ V => (∀ i, V i 0 = V i 1) ∧ V.det = 0 ∧ ¬ V.transpose * V = 1 := by
  obtain ⟨k, rfl⟩ : ∃ j, k = j + 1 := ⟨k - 1, by omega⟩
  have dg : IsDiagonal (Matrix.diagonal fun _ : Fin 2 => x) := fun i j e => Matrix.diagonal_apply_ne _ e
  refine gives_of le_rfl w ha la (jac_diag dg le_rfl k 1) c hc fun D V ar => ?_
  obtain ⟨σ, v, -, -, eV, -, ev⟩ := ar
  have e : ∀ i, V i 0 = V i 1 := fun i => by
    rw [eV, eV]
    have : v 0 = v 1 := by
      apply Fin.ext
      rw [ev, ev]
      simp
    rw [this]
  have dt : V.det = 0 := by rw [Matrix.det_fin_two, e, e]; ring
  refine ⟨e, dt, fun q => ?_⟩
  have := congrArg Matrix.det q
  rw [Matrix.det_mul, Matrix.det_one, dt] at this
  simp at this

/-- The symmetric matrix of the counterexamples below. -/
def negM : Matrix (Fin 3) (Fin 3) ℝ := !![1, -5, 0; -5, 2, 0; 0, 0, 3]

theorem negM_symm : negM.transpose = negM := by
  ext i j; fin_cases i <;> fin_cases j <;> rfl

theorem negM_pivot : pivotOf negM = ⟨0, 1, 2⟩ := by
  simp [pivotOf, pivotRows, pivotRow, List.range_succ, pivotStep, at0, absC, negM]

theorem small_five : small (-5) = false := by
  have f : ⌊(11 / 2 : ℝ)⌋ = 5 := by norm_num [Int.floor_eq_iff]
  have : roundC (-5) = -5 := by
    unfold roundC
    rw [if_pos (by norm_num), show (- -5 + 1 / 2 : ℝ) = 11 / 2 by norm_num, f]
    norm_num
  rw [small, this, isZeroApprox, absC_eq]
  norm_num [eps]

theorem negM_clean : clean negM = negM := by
  funext i j
  unfold clean
  fin_cases i <;> fin_cases j <;> simp [negM, small_five]

theorem negM_rot : rotOf negM = 1 := by
  obtain ⟨i, j, hij, e, er⟩ := rotOf_eq negM (by norm_num)
  rw [negM_pivot] at e
  have hi : i = 1 := Fin.ext (congrArg Pivot.sub_i e).symm
  have hj : j = 2 := Fin.ext (congrArg Pivot.sub_j e).symm
  subst hi; subst hj
  rw [er]
  have : angle (negM 1 2) (negM 1 1) (negM 2 2) = 0 := by
    unfold angle
    simp [negM]
  rw [this, rot_zero hij]

theorem negM_jac (k : Nat) : jac (k + 1) negM 1 = some (diagPart negM, 1) := by
  have e : nextOf negM = negM := by
    rw [nextOf, negM_rot]; simp [negM_clean]
  have c : stepOf negM = (true, diagPart negM) := by
    unfold stepOf
    rw [if_pos (by rw [e]; exact fun i j => .inl rfl), e]
  unfold jac
  rw [c, negM_rot]
  simp

/-- **C123** is false of symmetric matrices with negative entries off the diagonal: for the matrix with the rows `1 -5 0`, `-5 2 0` and
`0 0 3` the reported eigenvalues are 3, 2 and 1, the entries of its diagonal, although neither 2 nor 1 is an eigenvalue. -/
theorem C123_negative_fails (w : h.WF) (k a : Nat) (hk : 1 ≤ k) (ha : IsMat h a (!![1, -5, 0; -5, 2, 0; 0, 0, 3] : Matrix (Fin 3) (Fin 3) ℝ))
    (la : h.live (.m a)) (c : M ℝ (Option Eigen.Result)) (hc : c ∈ eigenCalls k a) :
    GivesEigen 3 c h (fun D _ => D 0 0 = 3 ∧ D 1 1 = 2 ∧ D 2 2 = 1) ∧
    (∀ x ∈ [(2 : ℝ), 1], ∀ v : Fin 3 → ℝ, (!![1, -5, 0; -5, 2, 0; 0, 0, 3] : Matrix (Fin 3) (Fin 3) ℝ).mulVec v = x • v → v = 0) := by
  obtain ⟨k, rfl⟩ : ∃ j, k = j + 1 := ⟨k - 1, by omega⟩
  refine ⟨gives_of (by norm_num) w ha la (negM_jac k) c hc fun D V ar => ?_, ?_⟩
  · obtain ⟨σ, v, hs, eD, -, -⟩ := ar
    have v0 : diagPart negM 0 0 = 1 := by simp [diagPart, negM]
    have v1 : diagPart negM 1 1 = 2 := by simp [diagPart, negM]
    have v2 : diagPart negM 2 2 = 3 := by simp [diagPart, negM]
    have inj := σ.injective
    have s01 := hs 0 1 (by decide)
    have s12 := hs 1 2 (by decide)
    rw [eD, eD, eD, if_pos rfl, if_pos rfl, if_pos rfl]
    have n01 : σ 0 ≠ σ 1 := fun e => absurd (inj e) (by decide)
    have n02 : σ 0 ≠ σ 2 := fun e => absurd (inj e) (by decide)
    have n12 : σ 1 ≠ σ 2 := fun e => absurd (inj e) (by decide)
    generalize σ 0 = p at *
    generalize σ 1 = q at *
    generalize σ 2 = r at *
    clear hs eD inj ha hc
    fin_cases p <;> fin_cases q <;> fin_cases r <;> simp_all <;> norm_num at *
  · intro x hx v hv
    have e0 := congrFun hv 0
    have e1 := congrFun hv 1
    have e2 := congrFun hv 2
    simp [Matrix.mulVec, dotProduct, Fin.sum_univ_three] at e0 e1 e2
    simp only [List.mem_cons, List.not_mem_nil, or_false] at hx
    have : v 0 = 0 ∧ v 1 = 0 ∧ v 2 = 0 := by
      rcases hx with rfl | rfl
      · exact ⟨by linarith, by linarith, e2.resolve_left (by norm_num)⟩
      · exact ⟨by linarith, by linarith, e2.resolve_left (by norm_num)⟩
    funext i
    fin_cases i
    · exact this.1
    · exact this.2.1
    · exact this.2.2

/-- **C123**: without a matrix, both results are null. -/
theorem C123_null (k : Nat) (h : Heap ℝ) : Mat.eigenb k none h = .ok (some ⟨none, none⟩, h) ∧ LinAlg.eigen k none h = .ok (some ⟨none, none⟩, h) :=
  ⟨rfl, rfl⟩

/-! ## C124 -/

namespace LinAlg

theorem noneBad_run (bad : ℝ → Prop) [DecidablePred bad] {r : Ref} (w : h.WF) {D : Matrix (Fin n) (Fin n) ℝ} (hD : HasM h r D) :
    noneBad bad r h = .ok (decide (∀ i, ¬ bad (D i i)), h) := by
  unfold noneBad
  rw [bind_ok (Hd.sizem_run hD)]
  have key := foldN_read (R := ℝ) n (fun k => decide (∀ i : Fin n, i.val < k → ¬ bad (D i i))) (fun i ok =>
    if ok then do
      let x ← Hd.element_getm r (i : Nat) (i : Nat)
      pure (decide ¬ bad x)
    else pure false) true h (by simp) fun k hk => ?_
  · rw [key]
    simp
  · have split : (∀ i : Fin n, i.val < k + 1 → ¬ bad (D i i)) ↔ (∀ i : Fin n, i.val < k → ¬ bad (D i i)) ∧ ¬ bad (D ⟨k, hk⟩ ⟨k, hk⟩) := by
      constructor
      · exact fun q => ⟨fun i l => q i (by omega), q ⟨k, hk⟩ (by simp)⟩
      · rintro ⟨q, q'⟩ i l
        rcases Nat.lt_succ_iff_lt_or_eq.mp l with z | z
        · exact q i z
        · rw [show i = ⟨k, hk⟩ from Fin.ext z]; exact q'
    by_cases c : ∀ i : Fin n, i.val < k → ¬ bad (D i i)
    · rw [if_pos (by simpa using c), bind_ok (Hd.element_getm_run w hD ⟨k, hk⟩ ⟨k, hk⟩)]
      show Out.ok _ = Out.ok _
      congr 2
      exact decide_eq_decide.mpr (by rw [split]; exact ⟨fun q => ⟨c, q⟩, fun q => q.2⟩)
    · rw [if_neg (by simpa using c)]
      show Out.ok _ = Out.ok _
      congr 2
      rw [eq_comm, decide_eq_false_iff_not, split]
      exact fun q => c q.1

/-- The three checks look at the reported eigenvalues. -/
theorem checks_run (hn : 2 ≤ n) (w : h.WF) (k : Nat) {a : Nat} {A B W : Matrix (Fin n) (Fin n) ℝ} (ha : IsMat h a A) (la : h.live (.m a))
    (e : jac k A 1 = some (B, W)) (bad : ℝ → Prop) [DecidablePred bad] :
    Runs (do
      let r ← LinAlg.eigen k (some (.m a))
      match r with
      | none => pure none
      | some r => do
        let b ← noneBad bad r.eigen_values
        pure (some b)) h fun r h' => h'.WF ∧ Keeps h h' (fun _ => False) ∧ ∃ b, r = some b ∧ (b = true ↔ ∀ i, ¬ bad (B i i)) := by
  refine Runs.bind ((eigenCalls_run hn w k ha la _ (by simp [eigenCalls])).mono fun r h' ⟨w', k', z⟩ => ?_)
  rw [e] at z
  obtain ⟨e', D, V, rfl, f1, f2, ne, hD, hV, σ, v, -, eD, -⟩ := z
  dsimp only
  refine Runs.step (noneBad_run bad w' hD) ?_
  refine Runs.of_eq rfl ⟨w', k', _, rfl, ?_⟩
  rw [decide_eq_true_eq]
  simp only [eD, if_true]
  exact ⟨fun q i => by simpa using q (σ.symm i), fun q i => q _⟩

end LinAlg

/-- `xᵀ A x`. -/
def quadratic (A : Matrix (Fin n) (Fin n) ℝ) (x : Fin n → ℝ) : ℝ := ∑ i, ∑ j, x i * A i j * x j

theorem quadratic_eq (A : Matrix (Fin n) (Fin n) ℝ) (x : Fin n → ℝ) : quadratic A x = dotProduct x (A.mulVec x) := by
  simp only [quadratic, dotProduct, Matrix.mulVec, Finset.mul_sum, mul_assoc]

theorem quadratic_basis {A B W : Matrix (Fin n) (Fin n) ℝ} (o : W.transpose * W = 1) (key : A * W = W * B) (d : IsDiagonal B) (y : Fin n → ℝ) :
    quadratic A (W.mulVec y) = ∑ i, B i i * y i ^ 2 := by
  rw [quadratic_eq, Matrix.mulVec_mulVec, key, Matrix.dotProduct_mulVec, Matrix.vecMul_mulVec, ← Matrix.mul_assoc,
    o, Matrix.one_mul, diag_eq d]
  simp only [dotProduct, Matrix.vecMul_diagonal, Matrix.diagonal_apply_eq]
  exact Finset.sum_congr rfl fun i _ => by ring

/-- Definiteness in terms of the eigenvalues. -/
theorem posdef_iff {A B W : Matrix (Fin n) (Fin n) ℝ} (o : W.transpose * W = 1) (key : A * W = W * B) (d : IsDiagonal B) :
    (∀ i, ¬ B i i ≤ 0) ↔ ∀ x : Fin n → ℝ, x ≠ 0 → 0 < quadratic A x := by
  constructor
  · intro hp x hx
    have ex : x = W.mulVec (W.transpose.mulVec x) := by rw [Matrix.mulVec_mulVec, orth_comm o, Matrix.one_mulVec]
    rw [ex, quadratic_basis o key d]
    have hy : W.transpose.mulVec x ≠ 0 := fun q => hx (by rw [ex, q, Matrix.mulVec_zero])
    obtain ⟨i, hi⟩ := Function.ne_iff.mp hy
    refine Finset.sum_pos' (fun j _ => mul_nonneg (not_le.mp (hp j)).le (sq_nonneg _)) ⟨i, Finset.mem_univ _, ?_⟩
    exact mul_pos (not_le.mp (hp i)) (by have : W.transpose.mulVec x i ≠ 0 := hi; positivity)
  · intro hq i hi
    have hy : W.mulVec (Pi.single i 1) ≠ 0 := fun q => by
      have : W.transpose.mulVec (W.mulVec (Pi.single i 1)) = Pi.single i 1 := by rw [Matrix.mulVec_mulVec, o, Matrix.one_mulVec]
      rw [q, Matrix.mulVec_zero] at this
      have := congrFun this i
      simp at this
    have := hq _ hy
    rw [quadratic_basis o key d, Finset.sum_eq_single i (fun j _ hj => by simp [hj]) (by simp)] at this
    simp at this
    linarith

theorem negdef_iff {A B W : Matrix (Fin n) (Fin n) ℝ} (o : W.transpose * W = 1) (key : A * W = W * B) (d : IsDiagonal B) :
    (∀ i, ¬ B i i ≥ 0) ↔ ∀ x : Fin n → ℝ, x ≠ 0 → quadratic A x < 0 := by
  have h1 := posdef_iff (A := -A) (B := -B) o (by rw [Matrix.neg_mul, key, Matrix.mul_neg]) fun i j e => by simp [d i j e]
  have h2 : ∀ x, quadratic (-A) x = -quadratic A x := fun x => by
    simp [quadratic]
  simp only [h2, Matrix.neg_apply, Left.neg_nonpos_iff, neg_pos] at h1
  exact h1

theorem det_iff {A B W : Matrix (Fin n) (Fin n) ℝ} (o : W.transpose * W = 1) (key : A * W = W * B) (d : IsDiagonal B) :
    (∀ i, ¬ B i i = 0) ↔ A.det ≠ 0 := by
  have e := congrArg Matrix.det key
  have o' := congrArg Matrix.det o
  rw [Matrix.det_mul, Matrix.det_mul] at e
  rw [Matrix.det_mul, Matrix.det_one] at o'
  have hW : W.det ≠ 0 := fun z => by rw [z] at o'; simp at o'
  have : A.det = ∏ i, B i i := by
    have : A.det = B.det := mul_right_cancel₀ hW (by rw [e, mul_comm])
    rw [this, diag_eq d, Matrix.det_diagonal]
    simp
  rw [this, Finset.prod_ne_zero_iff]
  simp

/-- **C124** (part): for a symmetric `2 × 2` matrix (given two rounds) `positive_definite_checker` is true exactly if the matrix is positive
definite and `negative_definite_checker` exactly if it is negative definite. -/
theorem C124_two_by_two_partial (w : h.WF) (k a : Nat) (hk : 2 ≤ k) (A : Matrix (Fin 2) (Fin 2) ℝ) (hs : A.transpose = A) (ha : IsMat h a A)
    (la : h.live (.m a)) :
    (Runs (LinAlg.positive_definite_checker k (some (.m a))) h fun r h' => h'.WF ∧ Keeps h h' (fun _ => False) ∧
      ∃ b, r = some b ∧ (b = true ↔ ∀ x : Fin 2 → ℝ, x ≠ 0 → 0 < ∑ i, ∑ j, x i * A i j * x j)) ∧
    Runs (LinAlg.negative_definite_checker k (some (.m a))) h fun r h' => h'.WF ∧ Keeps h h' (fun _ => False) ∧
      ∃ b, r = some b ∧ (b = true ↔ ∀ x : Fin 2 → ℝ, x ≠ 0 → ∑ i, ∑ j, x i * A i j * x j < 0) := by
  obtain ⟨k, rfl⟩ : ∃ j, k = j + 2 := ⟨k - 2, by omega⟩
  obtain ⟨B, W, e, o, key, d⟩ := jac_two hs k
  refine ⟨(LinAlg.checks_run le_rfl w _ ha la e (· ≤ 0)).mono fun r h' ⟨w', k', b, er, q⟩ => ⟨w', k', b, er, q.trans (posdef_iff o key d)⟩,
    (LinAlg.checks_run le_rfl w _ ha la e (· ≥ 0)).mono fun r h' ⟨w', k', b, er, q⟩ => ⟨w', k', b, er, q.trans (negdef_iff o key d)⟩⟩

/-- **C124** (part): the same for diagonal matrices of any size (at least two rows). -/
theorem C124_diagonal_partial (hn : 2 ≤ n) (w : h.WF) (k a : Nat) (hk : 1 ≤ k) (d : Fin n → ℝ) (ha : IsMat h a (Matrix.diagonal d))
    (la : h.live (.m a)) :
    (Runs (LinAlg.positive_definite_checker k (some (.m a))) h fun r h' => h'.WF ∧ Keeps h h' (fun _ => False) ∧
      ∃ b, r = some b ∧ (b = true ↔ ∀ i, 0 < d i)) ∧
    Runs (LinAlg.negative_definite_checker k (some (.m a))) h fun r h' => h'.WF ∧ Keeps h h' (fun _ => False) ∧
      ∃ b, r = some b ∧ (b = true ↔ ∀ i, d i < 0) := by
  obtain ⟨k, rfl⟩ : ∃ j, k = j + 1 := ⟨k - 1, by omega⟩
  have dg : IsDiagonal (Matrix.diagonal d) := fun i j e => Matrix.diagonal_apply_ne _ e
  have e := jac_diag dg hn k 1
  refine ⟨(LinAlg.checks_run hn w _ ha la e (· ≤ 0)).mono fun r h' ⟨w', k', b, er, q⟩ => ⟨w', k', b, er, q.trans (by simp)⟩,
    (LinAlg.checks_run hn w _ ha la e (· ≥ 0)).mono fun r h' ⟨w', k', b, er, q⟩ => ⟨w', k', b, er, q.trans (by simp)⟩⟩

/-- **C124** is false of `zero_eigenvalue`: it is true exactly if 0 is not an eigenvalue (for symmetric `2 × 2` matrices). -/
theorem C124_zero_eigenvalue_fails (w : h.WF) (k a : Nat) (hk : 2 ≤ k) (A : Matrix (Fin 2) (Fin 2) ℝ) (hs : A.transpose = A) (ha : IsMat h a A)
    (la : h.live (.m a)) :
    Runs (LinAlg.zero_eigenvalue k (some (.m a))) h fun r h' => h'.WF ∧ Keeps h h' (fun _ => False) ∧ ∃ b, r = some b ∧ (b = true ↔ A.det ≠ 0) := by
  obtain ⟨k, rfl⟩ : ∃ j, k = j + 2 := ⟨k - 2, by omega⟩
  obtain ⟨B, W, e, o, key, d⟩ := jac_two hs k
  exact (LinAlg.checks_run le_rfl w _ ha la e (· = 0)).mono fun r h' ⟨w', k', b, er, q⟩ => ⟨w', k', b, er, q.trans (det_iff o key d)⟩

/-- **C124** is false of symmetric matrices with negative entries off the diagonal: the matrix with the rows `1 -5 0`, `-5 2 0` and `0 0 3` is
reported to be positive definite, although `xᵀ A x = -7` for `x = (1, 1, 0)`. -/
theorem C124_negative_fails (w : h.WF) (k a : Nat) (hk : 1 ≤ k) (ha : IsMat h a (!![1, -5, 0; -5, 2, 0; 0, 0, 3] : Matrix (Fin 3) (Fin 3) ℝ))
    (la : h.live (.m a)) :
    (Runs (LinAlg.positive_definite_checker k (some (.m a))) h fun r h' => h'.WF ∧ Keeps h h' (fun _ => False) ∧ r = some true) ∧
    ∑ i, ∑ j, (![1, 1, 0] : Fin 3 → ℝ) i * (!![1, -5, 0; -5, 2, 0; 0, 0, 3] : Matrix (Fin 3) (Fin 3) ℝ) i j * (![1, 1, 0] : Fin 3 → ℝ) j = -7 := by
  obtain ⟨k, rfl⟩ : ∃ j, k = j + 1 := ⟨k - 1, by omega⟩
  refine ⟨(LinAlg.checks_run (by norm_num) w _ ha la (negM_jac k) (· ≤ 0)).mono fun r h' ⟨w', k', b, er, q⟩ => ⟨w', k', ?_⟩, ?_⟩
  · rw [er, q.mpr ?_]
    intro i
    fin_cases i <;> simp [diagPart, negM]
  · simp [Fin.sum_univ_three]; norm_num

/-- **C124** is false without a matrix: the three checks follow a null handle. -/
theorem C124_null_fails (k : Nat) (h : Heap ℝ) : LinAlg.positive_definite_checker k none h = .ub ∧ LinAlg.negative_definite_checker k none h = .ub ∧
    LinAlg.zero_eigenvalue k none h = .ub := ⟨rfl, rfl, rfl⟩

/-- A heap with a symmetric matrix, a diagonal matrix, a multiple of the identity and the counterexample. -/
noncomputable def eigHeap : Heap ℝ :=
  Heap.ofLists 0 [] [(2, 2, [2, 1, 1, 2]), (2, 2, [4, 0, 0, 7]), (2, 2, [3, 0, 0, 3]), (3, 3, [1, -5, 0, -5, 2, 0, 0, 0, 3])]

theorem eigHeap_wf : eigHeap.WF := Heap.ofLists_wf _ _ _ (by simp)

theorem eigHeap_zero : IsMat eigHeap 0 (!![2, 1; 1, 2] : Matrix (Fin 2) (Fin 2) ℝ) ∧ eigHeap.live (.m 0) :=
  ⟨⟨by simp [eigHeap, Heap.ofLists], fun i j => by fin_cases i <;> fin_cases j <;> simp [eigHeap, Heap.ofLists]⟩,
    by simp [eigHeap, Heap.ofLists, Heap.live, Loc.id]⟩

/-- Instances: symmetric and no multiple of the identity; diagonal with different entries; a multiple of the identity; the counterexample. -/
example : ∃ (h : Heap ℝ), h.WF ∧
    (IsMat h 0 (!![2, 1; 1, 2] : Matrix (Fin 2) (Fin 2) ℝ) ∧ h.live (.m 0) ∧ (!![2, 1; 1, 2] : Matrix (Fin 2) (Fin 2) ℝ).transpose = !![2, 1; 1, 2] ∧
      ¬ ∃ x, (!![2, 1; 1, 2] : Matrix (Fin 2) (Fin 2) ℝ) = Matrix.diagonal fun _ => x) ∧
    (IsMat h 1 (Matrix.diagonal (![4, 7] : Fin 2 → ℝ)) ∧ h.live (.m 1) ∧ Function.Injective (![4, 7] : Fin 2 → ℝ)) ∧
    (IsMat h 2 (Matrix.diagonal fun _ : Fin 2 => (3 : ℝ)) ∧ h.live (.m 2)) ∧
    (IsMat h 3 (!![1, -5, 0; -5, 2, 0; 0, 0, 3] : Matrix (Fin 3) (Fin 3) ℝ) ∧ h.live (.m 3)) := by
  refine ⟨eigHeap, eigHeap_wf, ⟨eigHeap_zero.1, eigHeap_zero.2, ?_, ?_⟩, ⟨⟨?_, ?_⟩, ?_, ?_⟩, ⟨⟨?_, ?_⟩, ?_⟩, ⟨⟨?_, ?_⟩, ?_⟩⟩
  · ext i j; fin_cases i <;> fin_cases j <;> rfl
  · rintro ⟨x, e⟩
    have := congrFun (congrFun e 0) 1
    simp at this
  · simp [eigHeap, Heap.ofLists]
  · intro i j; fin_cases i <;> fin_cases j <;> simp [eigHeap, Heap.ofLists]
  · simp [eigHeap, Heap.ofLists, Heap.live, Loc.id]
  · intro i j e; fin_cases i <;> fin_cases j <;> first | rfl | norm_num at e
  · simp [eigHeap, Heap.ofLists]
  · intro i j; fin_cases i <;> fin_cases j <;> simp [eigHeap, Heap.ofLists]
  · simp [eigHeap, Heap.ofLists, Heap.live, Loc.id]
  · simp [eigHeap, Heap.ofLists]
  · intro i j; fin_cases i <;> fin_cases j <;> simp [eigHeap, Heap.ofLists]
  · simp [eigHeap, Heap.ofLists, Heap.live, Loc.id]

end Verif
