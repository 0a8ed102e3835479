import Verif.Lemmas.Pca
import Verif.Props.Svd
import Verif.Props.LinAlgMore

/-! # C126: principal component analysis -/

namespace Verif
open Spec Eigen Pca LinAlg
variable {m n : Nat} {h : Heap ℝ}

/-- **C126** (part): for data with at least as many rows as columns (variables as samples), if the call comes to an end it returns the
coordinates of the centred data in the directions of `k` vectors of length 1, as a new matrix. Missing: that these are the principal
directions, see `C126_tall_fails`, that the call comes to an end, and data with more samples than variables, of which the covariance matrix
is not computed (`C29_cov_wide_fails`). -/
theorem C126_projection_partial (hn : 2 ≤ n) (hmn : n ≤ m) (w : h.WF) (fuel : Nat) (s : Pca) (A : Matrix (Fin m) (Fin n) ℝ)
    (hA : HasM h s.input_set A) {p q : Nat} (P0 : Matrix (Fin p) (Fin q) ℝ) (hP : HasM h s.u_reduce P0) (ne : s.input_set ≠ s.u_reduce)
    (hk0 : s.k ≠ 0) (hk : s.k ≤ m) :
    MayGivePca (principal_components fuel s) h s A fun P => ∀ j, ∑ i, P i j ^ 2 = 1 := by
  refine (principal_components_run hn hmn w fuel hA hP ne hk0 hk).mono fun r h' ⟨w', k', z⟩ => ⟨w', k', ?_⟩
  cases e1 : jac fuel (covCells A hmn * (covCells A hmn).transpose) 1 with
  | none => rw [e1] at z; exact .inl z
  | some BW =>
    obtain ⟨B1, W1⟩ := BW
    rw [e1] at z
    cases e2 : jac fuel ((covCells A hmn).transpose * covCells A hmn) 1 with
    | none => rw [e2] at z; exact .inl z
    | some BW2 =>
      obtain ⟨B2, W2⟩ := BW2
      rw [e2] at z
      obtain ⟨x, z, D, U, D2, V, er, fx, fz, hx, hP, hz, hA, ar, -⟩ := z
      refine .inr ⟨x, z, _, er, fx, fz, hx, hP, hz, hA, fun j => ?_⟩
      exact arranged_unit ar ((jac_inv (le_trans hn hmn) fuel _ 1 B1 W1 e1).2.1 (by simp)) _

theorem covMatrix_eq (A : Matrix (Fin m) (Fin n) ℝ) (i j : Fin m) :
    covMatrix A i j = (centred A * (centred A).transpose) i j / (n - 1) := by
  show sampleCov _ _ = _
  unfold sampleCov mean
  rw [Matrix.mul_apply]
  have : List.zipWith (fun x y => (x - (List.ofFn (A i)).sum / (List.ofFn (A i)).length) * (y - (List.ofFn (A j)).sum / (List.ofFn (A j)).length))
      (List.ofFn (A i)) (List.ofFn (A j)) = List.ofFn fun l => centred A i l * (centred A).transpose l j := by
    apply List.ext_getElem
    · simp
    · intro l h1 h2
      simp [centred, List.sum_ofFn]
  rw [this, List.sum_ofFn, List.length_ofFn]

theorem cov_psd (hn : 1 ≤ n) (A : Matrix (Fin m) (Fin n) ℝ) (x : Fin m → ℝ) : 0 ≤ quadratic (covMatrix A) x := by
  have hn' : (0 : ℝ) ≤ n - 1 := by
    have : (1 : ℝ) ≤ n := by exact_mod_cast hn
    linarith
  have ec : covMatrix A = (1 / ((n : ℝ) - 1)) • (centred A * (centred A).transpose) := by
    ext i j
    rw [covMatrix_eq, Matrix.smul_apply, smul_eq_mul]
    ring
  rw [quadratic_eq, ec, Matrix.smul_mulVec, dotProduct_smul, smul_eq_mul, ← Matrix.mulVec_mulVec, Matrix.dotProduct_mulVec]
  have : Matrix.vecMul x (centred A) = (centred A).transpose.mulVec x := (Matrix.mulVec_transpose _ _).symm
  rw [this]
  exact mul_nonneg (one_div_nonneg.mpr hn') (Finset.sum_nonneg fun l _ => mul_self_nonneg _)

/-- An eigenvector of the square of a positive semidefinite matrix is one of the matrix. -/
theorem psd_sqrt {C : Matrix (Fin n) (Fin n) ℝ} (hs : C.transpose = C) (psd : ∀ x, 0 ≤ quadratic C x) {u : Fin n → ℝ} {d : ℝ} (hd : 0 ≤ d)
    (e : (C * C).mulVec u = d • u) : C.mulVec u = Real.sqrt d • u := by
  obtain ⟨s, es⟩ : ∃ s, s = Real.sqrt d := ⟨_, rfl⟩
  have hs0 : 0 ≤ s := es ▸ Real.sqrt_nonneg d
  have ed : d = s * s := by rw [es, Real.mul_self_sqrt hd]
  rw [← es]
  obtain ⟨v, ev⟩ : ∃ v, v = C.mulVec u - s • u := ⟨_, rfl⟩
  have h1 : C.mulVec v = -(s • v) := by
    rw [ev, Matrix.mulVec_sub, Matrix.mulVec_mulVec, e, Matrix.mulVec_smul, ed, smul_sub, smul_smul]
    abel
  have h2 : quadratic C v = -(s * dotProduct v v) := by
    rw [quadratic_eq, h1, dotProduct_neg, dotProduct_smul, smul_eq_mul]
  have nv : 0 ≤ dotProduct v v := Finset.sum_nonneg fun i _ => mul_self_nonneg _
  have fin : dotProduct v v = 0 := by
    rcases hs0.eq_or_lt with z | z
    · rw [ev, ← z, zero_smul, sub_zero]
      have : dotProduct (C.mulVec u) (C.mulVec u) = dotProduct u ((C * C).mulVec u) := by
        rw [← Matrix.mulVec_mulVec]
        conv_rhs => rw [Matrix.dotProduct_mulVec]
        congr 1
        conv_rhs => rw [← hs]
        rw [Matrix.vecMul_transpose]
      rw [this, e, ed, ← z]
      simp
    · have := psd v
      rw [h2] at this
      nlinarith
  have v0 : v = 0 := by
    funext i
    have := (Finset.sum_eq_zero_iff_of_nonneg (fun i _ => mul_self_nonneg (v i))).mp fin i (Finset.mem_univ _)
    exact mul_self_eq_zero.mp this
  rw [v0] at ev
  exact (sub_eq_zero.mp ev.symm)

theorem psd_sqrt_mat {C W B : Matrix (Fin n) (Fin n) ℝ} (hs : C.transpose = C) (psd : ∀ x, 0 ≤ quadratic C x) (d : IsDiagonal B)
    (nn : ∀ j, 0 ≤ B j j) (e : C * C * W = W * B) : C * W = W * Matrix.diagonal fun j => Real.sqrt (B j j) := by
  ext i j
  have : (C * C).mulVec (fun i => W i j) = B j j • fun i => W i j := by
    funext i
    have := congrFun (congrFun e i) j
    rw [diag_eq d, Matrix.mul_diagonal] at this
    rw [Matrix.mul_apply] at this
    simp only [Pi.smul_apply, smul_eq_mul]
    rw [mul_comm, ← this]
    rfl
  have := congrFun (psd_sqrt hs psd (nn j) this) i
  rw [Matrix.mul_diagonal, Matrix.mul_apply, mul_comm]
  exact this

/-- What being the principal directions of data with covariance matrix `C` means for the columns of `P`: they are eigenvectors of length 1 for
eigenvalues in descending order, and no direction has a greater variance than the first. -/
def Principal {k : Nat} (C : Matrix (Fin n) (Fin n) ℝ) (P : Matrix (Fin n) (Fin k) ℝ) : Prop :=
  ∃ l : Fin k → ℝ, (∀ i j, i ≤ j → l j ≤ l i) ∧ C * P = P * Matrix.diagonal l ∧ (∀ j, ∑ i, P i j ^ 2 = 1) ∧
    ∀ j : Fin k, j.val = 0 → ∀ x : Fin n → ℝ, ∑ i, x i ^ 2 = 1 → quadratic C x ≤ quadratic C (fun i => P i j)

theorem quadratic_eig {C : Matrix (Fin n) (Fin n) ℝ} {u : Fin n → ℝ} {l : ℝ} (e : C.mulVec u = l • u) (hu : ∑ i, u i ^ 2 = 1) : quadratic C u = l := by
  rw [quadratic_eq, e, dotProduct_smul, smul_eq_mul, show dotProduct u u = 1 by rw [← hu]; exact Finset.sum_congr rfl fun i _ => by ring, mul_one]

theorem principal_of {C B W D U : Matrix (Fin n) (Fin n) ℝ} (hs : C.transpose = C) (psd : ∀ x, 0 ≤ quadratic C x) (d : IsDiagonal B)
    (o : W.transpose * W = 1) (e : C * C * W = W * B) (ar : Arranged B W D U) {k : Nat} (hk : k ≤ n) : Principal C (firstCols U hk) := by
  have nnB : ∀ j, 0 ≤ B j j := gram_nonneg (A := C) (fun j => by
    have := congrFun (congrFun o j) j
    rw [Matrix.mul_apply, Matrix.one_apply_eq] at this
    rw [← this]; exact Finset.sum_congr rfl fun i _ => by rw [sq]; rfl) d (by rw [hs]; exact e)
  have eW := psd_sqrt_mat hs psd d nnB e
  have gU := arranged_eig ar d e
  obtain ⟨dgD, soD⟩ := arranged_diag ar d
  have uU := arranged_unit ar o
  have nnD := gram_nonneg (A := C) uU dgD (by rw [hs]; exact gU)
  have eU := psd_sqrt_mat hs psd dgD nnD gU
  have cols : ∀ j, C.mulVec (fun i => U i j) = Real.sqrt (D j j) • fun i => U i j := by
    intro j
    funext i
    have := congrFun (congrFun eU i) j
    rw [Matrix.mul_diagonal, Matrix.mul_apply] at this
    simp only [Pi.smul_apply, smul_eq_mul]
    rw [mul_comm, ← this]; rfl
  refine ⟨fun j => Real.sqrt (D (Fin.castLE hk j) (Fin.castLE hk j)), fun i j q => Real.sqrt_le_sqrt (soD _ _ q), ?_, fun j => uU _, ?_⟩
  · ext i j
    have := congrFun (congrFun eU i) (Fin.castLE hk j)
    rw [Matrix.mul_diagonal] at this ⊢
    exact this
  · intro j hj x hx
    have := quadratic_eig (cols (Fin.castLE hk j)) (uU _)
    show _ ≤ quadratic C (fun i => U i (Fin.castLE hk j))
    rw [this]
    -- in the basis `W`
    have ex : x = W.mulVec (W.transpose.mulVec x) := by rw [Matrix.mulVec_mulVec, orth_comm o, Matrix.one_mulVec]
    obtain ⟨y, ey⟩ : ∃ y, y = W.transpose.mulVec x := ⟨_, rfl⟩
    have hy : ∑ i, y i ^ 2 = 1 := by
      have : dotProduct y y = dotProduct x x := by
        rw [ey, Matrix.dotProduct_mulVec, Matrix.vecMul_mulVec, Matrix.transpose_transpose, orth_comm o, Matrix.vecMul_one]
      have e2 : ∀ z : Fin n → ℝ, ∑ i, z i ^ 2 = dotProduct z z := fun z => Finset.sum_congr rfl fun i _ => by ring
      rw [e2, this, ← e2, hx]
    have dgS : IsDiagonal (Matrix.diagonal fun j => Real.sqrt (B j j)) := fun i j e => Matrix.diagonal_apply_ne _ e
    rw [ex, ← ey, quadratic_basis o eW dgS]
    calc ∑ i, (Matrix.diagonal fun j => Real.sqrt (B j j)) i i * y i ^ 2 ≤ ∑ i, Real.sqrt (D (Fin.castLE hk j) (Fin.castLE hk j)) * y i ^ 2 := by
          refine Finset.sum_le_sum fun i _ => mul_le_mul_of_nonneg_right ?_ (sq_nonneg _)
          rw [Matrix.diagonal_apply_eq]
          refine Real.sqrt_le_sqrt ?_
          obtain ⟨σ, v, so, eD, -⟩ := ar
          have q := so (Fin.castLE hk j) (σ.symm i) (by rw [Fin.le_def]; simp [hj])
          rw [σ.apply_symm_apply] at q
          rw [eD, if_pos rfl]
          exact q
      _ = _ := by rw [← Finset.mul_sum, hy, mul_one]

theorem covCells_square (A : Matrix (Fin n) (Fin n) ℝ) : covCells A le_rfl = covMatrix A := rfl

theorem pca_gives (hn : 2 ≤ n) (w : h.WF) (fuel : Nat) (s : Pca) (A : Matrix (Fin n) (Fin n) ℝ) (hA : HasM h s.input_set A) {p q : Nat}
    (P0 : Matrix (Fin p) (Fin q) ℝ) (hP : HasM h s.u_reduce P0) (ne : s.input_set ≠ s.u_reduce) (hk0 : s.k ≠ 0) (hk : s.k ≤ n)
    {B W : Matrix (Fin n) (Fin n) ℝ} (e : jac fuel (covMatrix A * covMatrix A) 1 = some (B, W)) (o : W.transpose * W = 1)
    (key : covMatrix A * covMatrix A * W = W * B) (d : IsDiagonal B) :
    GivesPca (principal_components fuel s) h s A fun P => Principal (covMatrix A) P ∧
      ((∀ i j, i ≠ j → B i i ≠ B j j) → P.transpose * P = 1) := by
  have hs := C29_covMatrix_symm A
  have e1 : jac fuel (covCells A le_rfl * (covCells A le_rfl).transpose) 1 = some (B, W) := by rw [covCells_square, hs, e]
  have e2 : jac fuel ((covCells A le_rfl).transpose * covCells A le_rfl) 1 = some (B, W) := by rw [covCells_square, hs, e]
  refine (principal_components_run hn le_rfl w fuel hA hP ne hk0 hk).mono fun r h' ⟨w', k', z⟩ => ⟨w', k', ?_⟩
  rw [e1, e2] at z
  obtain ⟨x, z, D, U, D2, V, er, fx, fz, hx, hP, hz, hA, ar, -⟩ := z
  refine ⟨x, z, _, er, fx, fz, hx, hP, hz, hA, principal_of hs (cov_psd (by omega) A) d o key ar hk, fun inj => ?_⟩
  have oU : U.transpose * U = 1 := by
    refine arranged_inj ar o fun i j hij => ?_
    obtain ⟨σ, v, -, eD, -⟩ := ar
    rw [eD, eD, if_pos rfl, if_pos rfl]
    exact inj _ _ fun q => hij (σ.injective q)
  ext i j
  have := congrFun (congrFun oU (Fin.castLE hk i)) (Fin.castLE hk j)
  rw [Matrix.mul_apply] at this ⊢
  refine Eq.trans this ?_
  simp [Matrix.one_apply, Fin.ext_iff]

/-- **C126** (part): for two variables and two samples the call comes to an end, and the directions used are the principal directions of the
data. -/
theorem C126_two_partial (w : h.WF) (fuel : Nat) (hf : 2 ≤ fuel) (s : Pca) (A : Matrix (Fin 2) (Fin 2) ℝ) (hA : HasM h s.input_set A) {p q : Nat}
    (P0 : Matrix (Fin p) (Fin q) ℝ) (hP : HasM h s.u_reduce P0) (ne : s.input_set ≠ s.u_reduce) (hk0 : s.k ≠ 0) (hk : s.k ≤ 2) :
    GivesPca (principal_components fuel s) h s A fun P => Principal (covMatrix A) P := by
  obtain ⟨fuel, rfl⟩ : ∃ j, fuel = j + 2 := ⟨fuel - 2, by omega⟩
  have hs := C29_covMatrix_symm A
  obtain ⟨B, W, e, o, key, d⟩ := jac_two (A := covMatrix A * covMatrix A) (by rw [Matrix.transpose_mul, hs]) fuel
  refine (pca_gives le_rfl w _ s A hA P0 hP ne hk0 hk e o key d).mono fun r h' ⟨w', k', x, z, P, er, fx, fz, hx, hP, hz, hA, q⟩ =>
    ⟨w', k', x, z, P, er, fx, fz, hx, hP, hz, hA, q.1⟩

/-- **C126** (part): for as many samples as variables, any number of them, none of which are correlated, the call comes to an end in the first
round, and the directions used are the principal directions of the data; they are orthogonal if the variances are all different. -/
theorem C126_uncorrelated_partial (hn : 2 ≤ n) (w : h.WF) (fuel : Nat) (hf : 1 ≤ fuel) (s : Pca) (A : Matrix (Fin n) (Fin n) ℝ)
    (hA : HasM h s.input_set A) {p q : Nat} (P0 : Matrix (Fin p) (Fin q) ℝ) (hP : HasM h s.u_reduce P0) (ne : s.input_set ≠ s.u_reduce)
    (hk0 : s.k ≠ 0) (hk : s.k ≤ n) (hc : ∀ i j, i ≠ j → covMatrix A i j = 0) :
    GivesPca (principal_components fuel s) h s A fun P => Principal (covMatrix A) P ∧
      ((∀ i j, i ≠ j → covMatrix A i i ≠ covMatrix A j j) → P.transpose * P = 1) := by
  obtain ⟨fuel, rfl⟩ : ∃ j, fuel = j + 1 := ⟨fuel - 1, by omega⟩
  have hd : covMatrix A * covMatrix A = Matrix.diagonal fun i => covMatrix A i i * covMatrix A i i := by
    rw [diag_eq (A := covMatrix A) hc, Matrix.diagonal_mul_diagonal]
    simp
  have dg : IsDiagonal (covMatrix A * covMatrix A) := by rw [hd]; exact fun i j e => Matrix.diagonal_apply_ne _ e
  have e := jac_diag dg hn fuel 1
  rw [Matrix.one_mul] at e
  refine (pca_gives hn w _ s A hA P0 hP ne hk0 hk e (rotOf_orth _ hn) (rotOf_comm dg hn) dg).mono
    fun r h' ⟨w', k', x, z, P, er, fx, fz, hx, hP, hz, hA, q⟩ => ⟨w', k', x, z, P, er, fx, fz, hx, hP, hz, hA, q.1, fun inj => q.2 ?_⟩
  intro i j hij
  rw [hd, Matrix.diagonal_apply_eq, Matrix.diagonal_apply_eq]
  intro z
  have nn : ∀ i, 0 ≤ covMatrix A i i := fun i => by
    have := cov_psd (show 1 ≤ n by omega) A (Pi.single i 1)
    simpa [quadratic, Pi.single_apply] using this
  exact inj i j hij ((mul_self_inj (nn i) (nn j)).mp z)

/-- Four variables and two samples, of which only the third variable varies. -/
def tallA : Matrix (Fin 4) (Fin 2) ℝ := !![1, 1; 1, 1; 0, 2; 1, 1]

theorem tallA_cov : covCells tallA (by norm_num) = 0 := by
  ext i j
  fin_cases i <;> fin_cases j <;> simp [covCells, sampleCov, mean, tallA, List.ofFn_succ]

theorem zero_pivot : pivotOf (0 : Matrix (Fin 4) (Fin 4) ℝ) = ⟨0, 0, 1⟩ := by
  simp [pivotOf, pivotRows, pivotRow, List.range_succ, pivotStep, at0, absC]

/-- **C126** is false of data with more variables than samples: with four variables and two samples, of which only the third variable varies, the
single component returned is 0, although the centred data are not. -/
theorem C126_tall_fails (w : h.WF) (fuel : Nat) (hf : 1 ≤ fuel) (s : Pca) (hs : s.k = 1)
    (hA : HasM h s.input_set (!![1, 1; 1, 1; 0, 2; 1, 1] : Matrix (Fin 4) (Fin 2) ℝ)) {p q : Nat}
    (P0 : Matrix (Fin p) (Fin q) ℝ) (hP : HasM h s.u_reduce P0) (ne : s.input_set ≠ s.u_reduce) :
    GivesPca (principal_components fuel s) h s (!![1, 1; 1, 1; 0, 2; 1, 1] : Matrix (Fin 4) (Fin 2) ℝ) (fun P =>
      P.transpose * centred (!![1, 1; 1, 1; 0, 2; 1, 1] : Matrix (Fin 4) (Fin 2) ℝ) = 0) ∧
      centred (!![1, 1; 1, 1; 0, 2; 1, 1] : Matrix (Fin 4) (Fin 2) ℝ) 2 = ![-1, 1] := by
  constructor
  swap
  · funext j
    have e : ∀ l, (!![1, 1; 1, 1; 0, 2; 1, 1] : Matrix (Fin 4) (Fin 2) ℝ) 2 l = ![0, 2] l := fun l => by fin_cases l <;> rfl
    simp only [centred, e]
    fin_cases j <;> norm_num [Fin.sum_univ_two]
  obtain ⟨fuel, rfl⟩ : ∃ j, fuel = j + 1 := ⟨fuel - 1, by omega⟩
  have z4 : IsDiagonal (0 : Matrix (Fin 4) (Fin 4) ℝ) := fun i j _ => rfl
  have z2 : IsDiagonal (0 : Matrix (Fin 2) (Fin 2) ℝ) := fun i j _ => rfl
  have e4 := jac_diag z4 (by norm_num) fuel 1
  have e2 := jac_diag z2 le_rfl fuel 1
  rw [Matrix.one_mul] at e4
  have hk : s.k ≤ 4 := by omega
  refine (principal_components_run le_rfl (show 2 ≤ 4 by norm_num) w (fuel + 1) hA hP ne (by omega) hk).mono fun r h' ⟨w', k', z⟩ => ⟨w', k', ?_⟩
  have c0 : covCells (!![1, 1; 1, 1; 0, 2; 1, 1] : Matrix (Fin 4) (Fin 2) ℝ) (show 2 ≤ 4 by norm_num) = 0 := tallA_cov
  rw [c0, Matrix.zero_mul, Matrix.transpose_zero, Matrix.zero_mul, e4, e2] at z
  obtain ⟨x, z, D, U, D2, V, er, fx, fz, hx, hP, hz, hA, ar, -⟩ := z
  refine ⟨x, z, _, er, fx, fz, hx, hP, hz, hA, ?_⟩
  have hU : ∀ i j, U i j = if i = 3 then 1 else 0 := by
    obtain ⟨σ, v, -, -, eV, -, l⟩ := ar
    intro i j
    have hv : v j = 3 := Fin.ext (by rw [l]; simp [lastIdx, List.range_succ, at0])
    rw [eV, hv]
    obtain ⟨a, b, hab, e, er⟩ := rotOf_eq (0 : Matrix (Fin 4) (Fin 4) ℝ) (by norm_num)
    rw [zero_pivot] at e
    have ha : a = 0 := Fin.ext (congrArg Pivot.sub_i e).symm
    have hb : b = 1 := Fin.ext (congrArg Pivot.sub_j e).symm
    subst ha; subst hb
    rw [er]
    fin_cases i <;> simp [rot]
  ext i j
  rw [Matrix.mul_apply]
  simp only [Matrix.transpose_apply, firstCols, hU]
  fin_cases j <;> simp [Fin.sum_univ_succ, centred] <;> norm_num

theorem sumSq_trace (A : Matrix (Fin m) (Fin n) ℝ) : sumSq A = (A.transpose * A).trace := by
  simp only [sumSq, Matrix.trace, Matrix.diag_apply, Matrix.mul_apply, Matrix.transpose_apply]
  rw [Finset.sum_comm]
  exact Finset.sum_congr rfl fun i _ => Finset.sum_congr rfl fun j _ => by ring

theorem sumSq_nonneg (A : Matrix (Fin m) (Fin n) ℝ) : 0 ≤ sumSq A := Finset.sum_nonneg fun i _ => Finset.sum_nonneg fun j _ => sq_nonneg _

/-- **C126**: `score` is one minus the share of the squared lengths of the (centred) data lost by the reduction; if the directions are
orthogonal unit vectors and the components come from `principal_components`, it is the share that is kept, a number between 0 and 1, and 1
if the data do not vary at all. -/
theorem C126_score (w : h.WF) (s : Pca) (X : Matrix (Fin m) (Fin n) ℝ) (P : Matrix (Fin m) (Fin s.k) ℝ) (Z : Matrix (Fin s.k) (Fin n) ℝ)
    (hi : s.input_set ≠ none) (hk : s.k ≠ 0) (hm : m ≠ 0) (hX : HasM h s.x_normalized X) (hP : HasM h s.u_reduce P) (hZ : HasM h s.z Z) :
    Runs (score s) h fun r h' => h'.WF ∧ Keeps h h' (fun _ => False) ∧
      (sumSq X ≠ 0 → r = 1 - sumSq (X - P * Z) / sumSq X) ∧
      (P.transpose * P = 1 → Z = P.transpose * X → (sumSq X ≠ 0 → r = sumSq Z / sumSq X) ∧ (sumSq X = 0 → r = 1) ∧ 0 ≤ r ∧ r ≤ 1) := by
  have hm' : (m : ℝ) ≠ 0 := by exact_mod_cast hm
  refine (score_run w hi hk hX hP hZ).mono fun r h' ⟨w', k', e⟩ => ⟨w', k', ?_⟩
  have key : sumSq X ≠ 0 → r = 1 - sumSq (X - P * Z) / sumSq X := by
    intro hx
    rw [e, if_neg (div_ne_zero hx hm')]
    rw [div_div_div_cancel_right₀ hm']
  refine ⟨key, fun o hZ => ?_⟩
  have pyth : sumSq (X - P * Z) = sumSq X - sumSq Z := by
    rw [sumSq_trace, sumSq_trace, sumSq_trace, ← Matrix.trace_sub]
    congr 1
    rw [Matrix.transpose_sub, Matrix.transpose_mul, Matrix.sub_mul, Matrix.mul_sub, Matrix.mul_sub]
    have e1 : X.transpose * (P * Z) = Z.transpose * Z := by
      rw [← Matrix.mul_assoc]
      conv_rhs => rw [hZ, Matrix.transpose_mul, Matrix.transpose_transpose, ← hZ]
    have e2 : Z.transpose * P.transpose * X = Z.transpose * Z := by rw [Matrix.mul_assoc, ← hZ]
    have e3 : Z.transpose * P.transpose * (P * Z) = Z.transpose * Z := by
      rw [Matrix.mul_assoc, ← Matrix.mul_assoc P.transpose, o, Matrix.one_mul]
    rw [e1, e2, e3]
    abel
  have le : sumSq Z ≤ sumSq X := by
    have := sumSq_nonneg (X - P * Z)
    linarith
  have c1 : sumSq X ≠ 0 → r = sumSq Z / sumSq X := by
    intro hx
    rw [key hx, pyth, sub_div, div_self hx]; ring
  have c2 : sumSq X = 0 → r = 1 := by
    intro hx
    have : sumSq (X - P * Z) = 0 := by
      have := sumSq_nonneg (X - P * Z)
      have := sumSq_nonneg Z
      linarith
    rw [e, this]; simp
  refine ⟨c1, c2, ?_⟩
  by_cases hx : sumSq X = 0
  · rw [c2 hx]; norm_num
  · rw [c1 hx]
    have hp : 0 < sumSq X := lt_of_le_of_ne (sumSq_nonneg X) (Ne.symm hx)
    exact ⟨div_nonneg (sumSq_nonneg Z) hp.le, by rw [div_le_one hp]; exact le⟩

/-- **C126**: without data or for no component the result is a null handle and the score is 0; nothing changes. -/
theorem C126_null (fuel : Nat) (s : Pca) (hs : s.input_set = none ∨ s.k = 0) (h : Heap ℝ) :
    principal_components fuel s h = .ok (some (none, s), h) ∧ score s h = .ok (0, h) := by
  unfold principal_components score
  rw [if_pos hs, if_pos hs]
  exact ⟨rfl, rfl⟩

/-- Two samples of two variables, three samples of three uncorrelated variables, the counterexample, and an empty matrix. -/
noncomputable def pcaHeap : Heap ℝ :=
  Heap.ofLists 0 [] [(2, 2, [1, 3, 0, 4]), (3, 3, [1, 2, 3, 1, -2, 1, 7, 7, 7]), (2, 4, [1, 1, 1, 1, 0, 2, 1, 1]), (0, 0, [])]

theorem pcaHeap_wf : pcaHeap.WF := Heap.ofLists_wf _ _ _ (by simp)

/-- Instances of the hypotheses. -/
example : pcaHeap.WF ∧ HasM pcaHeap (some (.m 3)) (fun (_ : Fin 0) (_ : Fin 0) => (0 : ℝ)) ∧
    HasM pcaHeap (some (.m 0)) (!![1, 3; 0, 4] : Matrix (Fin 2) (Fin 2) ℝ) ∧
    HasM pcaHeap (some (.m 1)) (!![1, 2, 3; 1, -2, 1; 7, 7, 7] : Matrix (Fin 3) (Fin 3) ℝ) ∧
    (∀ i j, i ≠ j → covMatrix (!![1, 2, 3; 1, -2, 1; 7, 7, 7] : Matrix (Fin 3) (Fin 3) ℝ) i j = 0) ∧
    (∀ i j, i ≠ j → covMatrix (!![1, 2, 3; 1, -2, 1; 7, 7, 7] : Matrix (Fin 3) (Fin 3) ℝ) i i ≠
      covMatrix (!![1, 2, 3; 1, -2, 1; 7, 7, 7] : Matrix (Fin 3) (Fin 3) ℝ) j j) ∧
    HasM pcaHeap (some (.m 2)) (!![1, 1; 1, 1; 0, 2; 1, 1] : Matrix (Fin 4) (Fin 2) ℝ) ∧
    (some (Loc.m 0) : Ref) ≠ some (Loc.m 3) := by
  refine ⟨pcaHeap_wf, ⟨3, rfl, ?_, ?_, ?_⟩, ⟨0, rfl, ?_, ?_, ?_⟩, ⟨1, rfl, ?_, ?_, ?_⟩, ?_, ?_, ⟨2, rfl, ?_, ?_, ?_⟩, by simp⟩
  · simp [pcaHeap, Heap.ofLists, Heap.live, Loc.id]
  · simp [pcaHeap, Heap.ofLists]
  · intro i; exact i.elim0
  · simp [pcaHeap, Heap.ofLists, Heap.live, Loc.id]
  · simp [pcaHeap, Heap.ofLists]
  · intro i j; fin_cases i <;> fin_cases j <;> simp [pcaHeap, Heap.ofLists]
  · simp [pcaHeap, Heap.ofLists, Heap.live, Loc.id]
  · simp [pcaHeap, Heap.ofLists]
  · intro i j; fin_cases i <;> fin_cases j <;> simp [pcaHeap, Heap.ofLists]
  · intro i j hij
    fin_cases i <;> fin_cases j <;> first | exact absurd rfl hij | (simp [covMatrix, sampleCov, mean, List.ofFn_succ] <;> norm_num)
  · intro i j hij
    fin_cases i <;> fin_cases j <;> first | exact absurd rfl hij | (simp [covMatrix, sampleCov, mean, List.ofFn_succ] <;> norm_num)
  · simp [pcaHeap, Heap.ofLists, Heap.live, Loc.id]
  · simp [pcaHeap, Heap.ofLists]
  · intro i j; fin_cases i <;> fin_cases j <;> simp [pcaHeap, Heap.ofLists]

end Verif
